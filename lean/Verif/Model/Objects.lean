import Verif.Model.TextureConvert
/-
Object identity: `ImageIndex` keys and hash tables, `CustomMipImage` objects, and `Texture` objects
that own their implementation through a pointer.
-/
namespace Cuttlefish

/-! ### `ImageIndex` and `ImageIndexHash` -/

/-- `ImageIndex::operator==`, lib/include/cuttlefish/Texture.h:272-275. -/
def ImageIndex.eqOp (a b : ImageIndex) : Bool :=
  a.cubeFace == b.cubeFace && a.mipLevel == b.mipLevel && a.depth == b.depth

/-- `ImageIndex::operator!=`, lib/include/cuttlefish/Texture.h:282-285. -/
def ImageIndex.neOp (a b : ImageIndex) : Bool := !(a.eqOp b)

/-- `ImageIndex(CubeFace, mipLevel, depth)`, lib/include/cuttlefish/Texture.h:250-254. -/
def ImageIndex.ofFace (f : CubeFace) (mipLevel depth : Nat) : ImageIndex := ⟨f, mipLevel, depth⟩

/-- `ImageIndex(mipLevel, depth)`, lib/include/cuttlefish/Texture.h:261-264. -/
def ImageIndex.flat (mipLevel depth : Nat) : ImageIndex := ⟨.PosX, mipLevel, depth⟩

/-- `std::size_t` arithmetic is modulo 2^64. -/
abbrev pow64 : Nat := 18446744073709551616

/-- One combination step `h ^= hasher(v) + combineFactor + (h << 6) + (h >> 2)`,
lib/include/cuttlefish/Texture.h:317-318; `size_t` has 64 bits. -/
def hashCombine (hasher : Nat → Nat) (h v : Nat) : Nat :=
  h ^^^ ((hasher v + 0x9e3779b9 + (h <<< 6) % pow64 + h >>> 2) % pow64)

/-- `ImageIndexHash::operator()`, lib/include/cuttlefish/Texture.h:312-320; `hasher` is
`std::hash<unsigned int>`. -/
def ImageIndex.hash (hasher : Nat → Nat) (i : ImageIndex) : Nat :=
  hashCombine hasher (hashCombine hasher (hasher i.cubeFace.toNat) i.mipLevel) i.depth

/-- `std::unordered_map<ImageIndex, α, ImageIndexHash>`
(lib/include/cuttlefish/Texture.h:400) as a table of buckets.  Simplification: the bucket count is
fixed; the standard's contract for lookups only inspects the bucket of the hash value. -/
structure HashMap (α : Type) where
  buckets : List (List (ImageIndex × α))

/-- An empty map with `n + 1` buckets. -/
def HashMap.empty (α : Type) (n : Nat) : HashMap α := ⟨List.replicate (n + 1) []⟩

/-- The bucket number of a key. -/
def HashMap.slot {α : Type} (hasher : Nat → Nat) (m : HashMap α) (k : ImageIndex) : Nat :=
  k.hash hasher % m.buckets.length

/-- `find`: search the bucket of the key with `operator==`. -/
def HashMap.find {α : Type} (hasher : Nat → Nat) (m : HashMap α) (k : ImageIndex) : Option α :=
  (((m.buckets[m.slot hasher k]?).getD []).find? (fun e => e.1.eqOp k)).map (·.2)

/-- `emplace(k, v)` (tool/main.cpp:317-318): does nothing if the key is present. -/
def HashMap.emplace {α : Type} (hasher : Nat → Nat) (m : HashMap α) (k : ImageIndex) (v : α) :
    Bool × HashMap α :=
  match m.find hasher k with
  | some _ => (false, m)
  | none =>
    let s := m.slot hasher k
    (true, ⟨m.buckets.set s ((k, v) :: (m.buckets[s]?).getD [])⟩)

/-! ### `CustomMipImage` objects -/

/-- The value of the member `const Image* image`: null, an image owned by the user, or the
`imageStorage` member of an object. -/
inductive ImgPtr where
  | external (e : Nat)
  | storage (obj : Nat)
  deriving DecidableEq, Repr

/-- A `CustomMipImage` object, lib/include/cuttlefish/Texture.h:326-394. -/
structure CMObj (Img : Type) where
  image : ImgPtr
  replacement : MipReplacement
  imageStorage : Option Img
  deriving DecidableEq, Repr

/-- The memory: live objects by address. -/
abbrev CMMem (Img : Type) := Nat → Option (CMObj Img)

/-- Overwrite one address. -/
def CMMem.put {Img : Type} (m : CMMem Img) (a : Nat) (o : Option (CMObj Img)) : CMMem Img :=
  fun b => if b = a then o else m b

/-- Operations on objects at addresses chosen by the caller. -/
inductive CMOp (Img : Type) where
  /-- constructor from an lvalue image -/
  | ref (dst : Nat) (e : Nat) (r : MipReplacement)
  /-- constructor from an rvalue image -/
  | own (dst : Nat) (img : Option Img) (r : MipReplacement)
  | copyCtor (dst src : Nat)
  | moveCtor (dst src : Nat)
  | copyAssign (dst src : Nat)
  | moveAssign (dst src : Nat)
  | destroy (a : Nat)

/-- One operation.  Constructing over a live object or using a dead one is undefined.
Constructors: lib/include/cuttlefish/Texture.h:336-352; copies and moves:
lib/src/Texture.cpp:258-316.  A moved-from `Image` is invalid (lib/src/Image.cpp:842). -/
def CMMem.step {Img : Type} (m : CMMem Img) : CMOp Img → Res (CMMem Img)
  | .ref dst e r =>
    match m dst with
    | some _ => .ub
    | none => .ok (m.put dst (some ⟨.external e, r, none⟩))
  | .own dst img r =>
    match m dst with
    | some _ => .ub
    | none => .ok (m.put dst (some ⟨.storage dst, r, img⟩))
  | .copyCtor dst src =>
    match m dst, m src with
    | none, some o =>
      if o.image = .storage src then
        .ok (m.put dst (some ⟨.storage dst, o.replacement, o.imageStorage⟩))
      else .ok (m.put dst (some ⟨o.image, o.replacement, none⟩))
    | _, _ => .ub
  | .moveCtor dst src =>
    match m dst, m src with
    | none, some o =>
      if o.image = .storage src then
        .ok ((m.put src (some { o with imageStorage := none })).put dst
          (some ⟨.storage dst, o.replacement, o.imageStorage⟩))
      else .ok (m.put dst (some ⟨o.image, o.replacement, none⟩))
    | _, _ => .ub
  | .copyAssign dst src =>
    match m dst, m src with
    | some d, some o =>
      if dst = src then .ok m
      else if o.image = .storage src then
        .ok (m.put dst (some { d with image := .storage dst, imageStorage := o.imageStorage }))
      else .ok (m.put dst (some { d with image := o.image, imageStorage := none }))
    | _, _ => .ub
  | .moveAssign dst src =>
    match m dst, m src with
    | some d, some o =>
      if dst = src then .ok m
      else if o.image = .storage src then
        .ok ((m.put src (some { o with imageStorage := none })).put dst
          (some { d with image := .storage dst, imageStorage := o.imageStorage }))
      else .ok (m.put dst (some { d with image := o.image, imageStorage := none }))
    | _, _ => .ub
  | .destroy a =>
    match m a with
    | none => .ub
    | some _ => .ok (m.put a none)

/-- A history of operations. -/
def CMMem.run {Img : Type} : CMMem Img → List (CMOp Img) → Res (CMMem Img)
  | m, [] => .ok m
  | m, o :: os => do
    let m' ← m.step o
    CMMem.run m' os

/-- Reading `*image`: undefined if the pointer refers to the storage of a dead object.
`ext` gives the user's images. -/
def CMMem.deref {Img : Type} (ext : Nat → Option Img) (m : CMMem Img) : ImgPtr → Res (Option Img)
  | .external e => .ok (ext e)
  | .storage a => match m a with
    | none => .ub
    | some o => .ok o.imageStorage

/-! ### `Texture` objects that own an `Impl` -/

/-- Memory with textures: variables holding the `m_impl` pointer, the heap of `Impl` objects, and
the next unused address. -/
structure TexMem (Img : Type) where
  vars : Nat → Option (Option Nat)
  heap : Nat → Option (TexImpl Img)
  next : Nat

/-- Overwrite one entry of a table. -/
def fput {β : Type} (f : Nat → β) (a : Nat) (b : β) : Nat → β := fun x => if x = a then b else f x

/-- Operations on texture variables. -/
inductive TexOp (Img : Type) where
  | construct (v : Nat)
  | copyCtor (dst src : Nat)
  | moveCtor (dst src : Nat)
  | copyAssign (dst src : Nat)
  | moveAssign (dst src : Nat)
  | destroy (v : Nat)
  | call (v : Nat) (op : Op Img)

section
variable {Img : Type}

/-- Dereference a variable: the value of the texture it denotes; undefined if the variable or the
`Impl` is dead. -/
def TexMem.value (m : TexMem Img) (v : Nat) : Res (Tex Img) :=
  match m.vars v with
  | none => .ub
  | some none => .ok none
  | some (some p) => match m.heap p with
    | none => .ub
    | some i => .ok (some i)

/-- `delete m_impl` if not null (`unique_ptr` destructor and `reset`): double deletion is
undefined. -/
def TexMem.free (m : TexMem Img) : Option Nat → Res (TexMem Img)
  | none => .ok m
  | some p => match m.heap p with
    | none => .ub
    | some _ => .ok { m with heap := fput m.heap p none }

/-- `m_impl.reset(new Impl(i))` on the variable `v` whose pointer is `old`. -/
def TexMem.alloc (m : TexMem Img) (v : Nat) (old : Option Nat) (i : TexImpl Img) :
    Res (TexMem Img) := do
  let m' ← ({ m with heap := fput m.heap m.next (some i), next := m.next + 1 } : TexMem Img).free old
  pure { m' with vars := fput m'.vars v (some (some m.next)) }

/-- Store the state after a public call: `initialize` (lib/src/Texture.cpp:1136-1168) resets the
pointer and allocates a new `Impl`, the other calls change the existing one in place. -/
def TexMem.storeCall (m : TexMem Img) (v : Nat) (old : Option Nat) (t' : Tex Img)
    (fresh : Bool) : Res (TexMem Img) :=
  match t', old with
  | none, _ => do
    let m' ← m.free old
    pure { m' with vars := fput m'.vars v (some none) }
  | some i, some p =>
    if fresh then do
      let m' ← m.free (some p)
      ({ m' with vars := fput m'.vars v (some none) } : TexMem Img).alloc v none i
    else .ok { m with heap := fput m.heap p (some i) }
  | some i, none => m.alloc v none i

/-- Whether the call allocates a new `Impl`. -/
def Op.allocates : Op Img → Bool
  | .initialize .. => true
  | _ => false

/-- One operation on texture objects: default construction and destruction
lib/src/Texture.cpp:1088-1090, copy construction 1098-1102, move construction 1104 (defaulted:
moves the `unique_ptr`), copy assignment 1106-1122, move assignment 1124 (defaulted:
`reset(other.release())`).  Returns what a public call returns. -/
def TexMem.step (W : World Img) (m : TexMem Img) : TexOp Img → Res (Option (Out Img) × TexMem Img)
  | .construct v =>
    match m.vars v with
    | some _ => .ub
    | none => .ok (none, { m with vars := fput m.vars v (some none) })
  | .destroy v =>
    match m.vars v with
    | none => .ub
    | some p => do
      let m' ← m.free p
      pure (none, { m' with vars := fput m'.vars v none })
  | .copyCtor dst src =>
    match m.vars dst, m.vars src with
    | none, some none => .ok (none, { m with vars := fput m.vars dst (some none) })
    | none, some (some q) =>
      match m.heap q with
      | none => .ub
      | some i => do
        let m' ← m.alloc dst none i
        pure (none, m')
    | _, _ => .ub
  | .moveCtor dst src =>
    match m.vars dst, m.vars src with
    | none, some p => .ok (none, { m with vars := fput (fput m.vars src (some none)) dst (some p) })
    | _, _ => .ub
  | .copyAssign dst src =>
    match m.vars dst, m.vars src with
    | some p, some q =>
      if dst = src then .ok (none, m)
      else match q with
        | some q => match m.heap q with
          | none => .ub
          | some i => match p with
            | some p => match m.heap p with
              | none => .ub
              | some _ => .ok (none, { m with heap := fput m.heap p (some i) })
            | none => do
              let m' ← m.alloc dst none i
              pure (none, m')
        | none => do
          let m' ← m.free p
          pure (none, { m' with vars := fput m'.vars dst (some none) })
    | _, _ => .ub
  | .moveAssign dst src =>
    match m.vars dst, m.vars src with
    | some p, some q =>
      -- `release()` empties the source, then `reset` frees the old target
      if dst = src then .ok (none, m)
      else do
        let m' ← ({ m with vars := fput m.vars src (some none) } : TexMem Img).free p
        pure (none, { m' with vars := fput m'.vars dst (some q) })
    | _, _ => .ub
  | .call v op => do
    let t ← m.value v
    let r ← call W t op
    match m.vars v with
    | none => .ub
    | some p => do
      let m' ← m.storeCall v p r.2 op.allocates
      pure (some r.1, m')

/-- A history of operations on texture objects. -/
def TexMem.run (W : World Img) : TexMem Img → List (TexOp Img) →
    Res (List (Option (Out Img)) × TexMem Img)
  | m, [] => .ok ([], m)
  | m, o :: os => do
    let r ← m.step W o
    let rs ← TexMem.run W r.2 os
    pure (r.1 :: rs.1, rs.2)

/-- Memory at program start. -/
def TexMem.init (Img : Type) : TexMem Img := ⟨fun _ => none, fun _ => none, 0⟩

end
end Cuttlefish
