import Verif.Model.Objects
import Verif.Proofs.Basic
/-
C40: image index keys are consistent.
-/
namespace Cuttlefish

/-- `==` holds exactly if face, level and depth are equal, and `!=` is its negation. -/
theorem C40_eq_iff (a b : ImageIndex) :
    (a.eqOp b = true ↔ a.cubeFace = b.cubeFace ∧ a.mipLevel = b.mipLevel ∧ a.depth = b.depth) ∧
    (a.neOp b = true ↔ ¬(a.cubeFace = b.cubeFace ∧ a.mipLevel = b.mipLevel ∧ a.depth = b.depth)) := by
  have h : a.eqOp b = true ↔ a.cubeFace = b.cubeFace ∧ a.mipLevel = b.mipLevel ∧ a.depth = b.depth := by
    simp [ImageIndex.eqOp, and_assoc]
  refine ⟨h, ?_⟩
  rw [← h]; simp [ImageIndex.neOp]

/-- Equal indices hash equally, whatever `std::hash<unsigned int>` is. -/
theorem C40_equal_hash (hasher : Nat → Nat) (a b : ImageIndex) (h : a.eqOp b = true) :
    a.hash hasher = b.hash hasher := by
  obtain ⟨h1, h2, h3⟩ := (C40_eq_iff a b).1.1 h
  cases a; cases b; simp_all

/-- The hash is a `size_t`. -/
theorem C40_hash_range (hasher : Nat → Nat) (hh : ∀ n, hasher n < pow64) (a : ImageIndex) :
    a.hash hasher < pow64 := by
  have : ∀ h v, h < pow64 → hashCombine hasher h v < pow64 := by
    intro h v hv
    have e : pow64 = 2 ^ 64 := by decide
    unfold hashCombine
    rw [e] at hv ⊢
    exact Nat.xor_lt_two_pow hv (Nat.mod_lt _ (by decide))
  exact this _ _ (this _ _ (hh _))

/-- The index constructors address the slot they name. -/
theorem C40_constructors (f : CubeFace) (m d : Nat) :
    (ImageIndex.ofFace f m d).cubeFace = f ∧ (ImageIndex.ofFace f m d).mipLevel = m ∧
    (ImageIndex.ofFace f m d).depth = d ∧ (ImageIndex.flat m d).eqOp (ImageIndex.ofFace .PosX m d) := by
  simp [ImageIndex.ofFace, ImageIndex.flat, ImageIndex.eqOp]

/-- What a map should contain after insertions: the first value given for each index. -/
def Spec.firstFor {α : Type} (entries : List (ImageIndex × α)) (k : ImageIndex) : Option α :=
  (entries.find? (fun e => decide (e.1.cubeFace = k.cubeFace ∧ e.1.mipLevel = k.mipLevel ∧
    e.1.depth = k.depth))).map (·.2)

/-- Insert a list of entries. -/
def HashMap.emplaceAll {α : Type} (hasher : Nat → Nat) (m : HashMap α) :
    List (ImageIndex × α) → HashMap α
  | [] => m
  | e :: es => HashMap.emplaceAll hasher (m.emplace hasher e.1 e.2).2 es

section
variable {α : Type} {hasher : Nat → Nat}

theorem HashMap.find_emplace {m : HashMap α} (hpos : 0 < m.buckets.length) (k : ImageIndex) (v : α)
    (k' : ImageIndex) :
    ((m.emplace hasher k v).2).find hasher k' =
      if k.eqOp k' then (m.find hasher k').or (some v) else m.find hasher k' := by
  unfold HashMap.emplace
  cases hf : m.find hasher k with
  | some x =>
    simp only
    split
    · next h =>
      have : m.find hasher k' = some x := by
        obtain ⟨h1, h2, h3⟩ := (C40_eq_iff k k').1.1 h
        have : k = k' := by cases k; cases k'; simp_all
        rw [← this, hf]
      rw [this]; rfl
    · rfl
  | none =>
    simp only
    have hs : m.slot hasher k < m.buckets.length := Nat.mod_lt _ hpos
    by_cases hsl : m.slot hasher k' = m.slot hasher k
    · have hslot : HashMap.slot hasher (⟨m.buckets.set (m.slot hasher k)
          ((k, v) :: (m.buckets[m.slot hasher k]?).getD [])⟩ : HashMap α) k' = m.slot hasher k := by
        simp only [HashMap.slot, List.length_set] at hsl ⊢; exact hsl
      unfold HashMap.find at hf ⊢
      rw [hslot]
      simp only [List.getElem?_set_self hs, Option.getD_some, List.find?_cons]
      by_cases he : k.eqOp k' = true
      · simp only [he, if_true, Option.map_some]
        have : k = k' := by
          obtain ⟨h1, h2, h3⟩ := (C40_eq_iff k k').1.1 he
          cases k; cases k'; simp_all
        subst this; rw [hf]; rfl
      · simp only [he, hsl]; simp
    · have he : ¬ k.eqOp k' = true := by
        intro he
        apply hsl
        unfold HashMap.slot; rw [C40_equal_hash hasher k k' he]
      rw [if_neg he]
      have hslot : HashMap.slot hasher (⟨m.buckets.set (m.slot hasher k)
          ((k, v) :: (m.buckets[m.slot hasher k]?).getD [])⟩ : HashMap α) k' = m.slot hasher k' := by
        simp only [HashMap.slot, List.length_set]
      unfold HashMap.find
      rw [hslot, List.getElem?_set_ne (Ne.symm hsl)]

theorem HashMap.emplace_length (m : HashMap α) (k : ImageIndex) (v : α) :
    (m.emplace hasher k v).2.buckets.length = m.buckets.length := by
  unfold HashMap.emplace; split <;> simp

/-- A map filled with any sequence of entries returns, for every index, the first value inserted
for that index and nothing for other indices; so it holds at most one image per slot. -/
theorem C40_lookup (n : Nat) (entries : List (ImageIndex × α)) (k : ImageIndex) :
    ((HashMap.empty α n).emplaceAll hasher entries).find hasher k = Spec.firstFor entries k := by
  have gen : ∀ (entries : List (ImageIndex × α)) (m : HashMap α), 0 < m.buckets.length →
      (m.emplaceAll hasher entries).find hasher k = (m.find hasher k).or (Spec.firstFor entries k) := by
    intro entries
    induction entries with
    | nil => intro m _; simp [HashMap.emplaceAll, Spec.firstFor]
    | cons e es ih =>
      intro m hm
      rw [HashMap.emplaceAll, ih _ (by rw [HashMap.emplace_length]; exact hm),
        HashMap.find_emplace hm]
      unfold Spec.firstFor
      rw [List.find?_cons]
      by_cases he : e.1.eqOp k = true
      · have hd := (C40_eq_iff e.1 k).1.1 he
        rw [if_pos he]
        simp only [hd, and_self, decide_true, Option.map_some]
        cases m.find hasher k <;> simp
      · have hd := mt (C40_eq_iff e.1 k).1.2 he
        rw [if_neg he]
        simp only [hd, decide_false]
  rw [gen entries _ (by simp [HashMap.empty])]
  have : (HashMap.empty α n).find hasher k = none := by
    unfold HashMap.find HashMap.empty
    simp only [List.getElem?_replicate]
    split <;> simp
  rw [this]; rfl

end

example : ((HashMap.empty String 7).emplaceAll id
    [(⟨.PosX, 1, 0⟩, "a"), (⟨.NegX, 1, 0⟩, "b"), (⟨.PosX, 1, 0⟩, "c")]).find id ⟨.PosX, 1, 0⟩ =
    some "a" := by decide
example : ImageIndex.hash id ⟨.PosX, 1, 0⟩ ≠ ImageIndex.hash id ⟨.NegX, 1, 0⟩ := by decide

end Cuttlefish
