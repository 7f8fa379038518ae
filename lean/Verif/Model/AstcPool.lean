import Verif.Model.Num
/-
The pool of ASTC compression contexts (lib/src/AstcConverter.cpp:38-101) with the workers that use it
(lib/src/AstcConverter.cpp:110-131, 206-233), as a small-step system.  Every function of the pool runs under a
mutex and is one step.  A compression is two steps, so that others can move in between.

The external library is modelled by its contract: `astcenc_context_alloc` gives a new context or fails (a null
pointer), `astcenc_context_free` of a null pointer does nothing, freeing a context that is not alive or in use is
undefined, and so is compressing with a null pointer, with a context that is not alive, or with one that is in
use (contexts are made for one thread).
-/
namespace Cuttlefish

/-- What the library knows of one context: nothing any more (freed), or its configuration and whether a
compression is running. -/
abbrev AstcSlot (K : Type) := Option (K × Bool)

/-- The contexts ever allocated, by address. -/
abbrev AstcHeap (K : Type) := List (AstcSlot K)

section
variable {K : Type}

/-- `astcenc_context_alloc`: a new context, or null. -/
def astcAlloc (heap : AstcHeap K) (k : K) (success : Bool) : Option Nat × AstcHeap K :=
  if success then (some heap.length, heap ++ [some (k, false)]) else (none, heap)

/-- `astcenc_context_free`. -/
def astcFree (heap : AstcHeap K) : Option Nat → Res (AstcHeap K)
  | none => .ok heap
  | some a => match heap[a]? with
    | some (some (_, false)) => .ok (heap.set a none)
    | _ => .ub

/-- The beginning of `astcenc_compress_image`. -/
def astcStart (heap : AstcHeap K) : Option Nat → Res (AstcHeap K)
  | none => .ub
  | some a => match heap[a]? with
    | some (some (k, false)) => .ok (heap.set a (some (k, true)))
    | _ => .ub

/-- The end of `astcenc_compress_image` and `astcenc_compress_reset`. -/
def astcStop (heap : AstcHeap K) : Option Nat → Res (AstcHeap K)
  | none => .ub
  | some a => match heap[a]? with
    | some (some (k, true)) => .ok (heap.set a (some (k, false)))
    | _ => .ub

/-- A `ContextInfo`, lib/src/AstcConverter.cpp:74-94: a context and its configuration. -/
abbrev AstcEntry (K : Type) := Option Nat × K

/-- The search of `createContext`, lib/src/AstcConverter.cpp:47-56: the first entry with the same configuration
(compared byte by byte) is taken out. -/
def astcTake [DecidableEq K] (k : K) : List (AstcEntry K) → Option (Option Nat × List (AstcEntry K))
  | [] => none
  | e :: es =>
    if e.2 = k then some (e.1, es)
    else match astcTake k es with
      | none => none
      | some r => some (r.1, e :: r.2)

/-- `createContext`, lib/src/AstcConverter.cpp:43-62.  `success` is the outcome of a new allocation; a failure is
only caught by an `assert`. -/
def astcCreate [DecidableEq K] (cache : List (AstcEntry K)) (heap : AstcHeap K) (k : K) (success : Bool) :
    Option Nat × List (AstcEntry K) × AstcHeap K :=
  match astcTake k cache with
  | some r => (r.1, r.2, heap)
  | none =>
    let r := astcAlloc heap k success
    (r.1, cache, r.2)

/-- The loop of `destroyContext`, lib/src/AstcConverter.cpp:68-69, with the list back to front: `pop_back` while
the size is not below the limit.  `pop_back` on an empty list is undefined. -/
def astcTrim (limit : Nat) : AstcHeap K → List (AstcEntry K) → Res (AstcHeap K × List (AstcEntry K))
  | heap, [] => if limit ≤ 0 then .ub else .ok (heap, [])
  | heap, e :: es =>
    if limit ≤ es.length + 1 then do
      let heap' ← astcFree heap e.1
      astcTrim limit heap' es
    else .ok (heap, e :: es)

/-- `destroyContext`, lib/src/AstcConverter.cpp:64-72. -/
def astcDestroy (limit : Nat) (cache : List (AstcEntry K)) (heap : AstcHeap K) (e : AstcEntry K) :
    Res (List (AstcEntry K) × AstcHeap K) := do
  let r ← astcTrim limit heap cache.reverse
  .ok (e :: r.2.reverse, r.1)

/-- `cacheSize`, lib/src/AstcConverter.cpp:100: `3*std::thread::hardware_concurrency()`. -/
def astcLimit (hw : Nat) : Nat := u32 (3 * hw)

/-- The thread data of a worker, lib/src/AstcConverter.cpp:110-131: its context and configuration, and whether it
is inside `process`. -/
structure AstcWorker (K : Type) where
  context : Option Nat
  config : K
  busy : Bool

/-- All workers ever created (`none` once destroyed), the pool and the library. -/
structure AstcState (K : Type) where
  workers : List (Option (AstcWorker K))
  cache : List (AstcEntry K)
  heap : AstcHeap K

/-- What happens next: a converter creates the data of a worker, a worker begins or ends compressing a block, the
data of a worker is destroyed. -/
inductive AstcStep (K : Type) where
  | create (k : K) (success : Bool)
  | start (w : Nat)
  | stop (w : Nat)
  | destroy (w : Nat)

/-- One step; `none` if it cannot happen: only existing workers act, a worker compresses one block at a time, and
its data is destroyed after it has been joined (lib/src/Converter.cpp:578-580). -/
def AstcState.step [DecidableEq K] (limit : Nat) (s : AstcState K) : AstcStep K → Option (Res (AstcState K))
  | .create k success =>
    let r := astcCreate s.cache s.heap k success
    some (.ok ⟨s.workers ++ [some ⟨r.1, k, false⟩], r.2.1, r.2.2⟩)
  | .start w => match s.workers[w]? with
    | some (some ⟨c, k, false⟩) => some (do
        let heap ← astcStart s.heap c
        .ok ⟨s.workers.set w (some ⟨c, k, true⟩), s.cache, heap⟩)
    | _ => none
  | .stop w => match s.workers[w]? with
    | some (some ⟨c, k, true⟩) => some (do
        let heap ← astcStop s.heap c
        .ok ⟨s.workers.set w (some ⟨c, k, false⟩), s.cache, heap⟩)
    | _ => none
  | .destroy w => match s.workers[w]? with
    | some (some ⟨c, k, false⟩) => some (do
        let r ← astcDestroy limit s.cache s.heap (c, k)
        .ok ⟨s.workers.set w none, r.1, r.2⟩)
    | _ => none

/-- A history; `none` if a step cannot happen. -/
def AstcState.exec [DecidableEq K] (limit : Nat) : List (AstcStep K) → AstcState K → Option (Res (AstcState K))
  | [], s => some (.ok s)
  | o :: os, s => match s.step limit o with
    | none => none
    | some .ub => some .ub
    | some (.ok s') => AstcState.exec limit os s'

/-- The state when the program starts. -/
def AstcState.init : AstcState K := ⟨[], [], []⟩

/-- The destructor of the pool at the end of the program (the list destroys its entries). -/
def astcShutdown : List (AstcEntry K) → AstcHeap K → Res (AstcHeap K)
  | [], heap => .ok heap
  | e :: es, heap => do
    let heap' ← astcFree heap e.1
    astcShutdown es heap'

end
end Cuttlefish
