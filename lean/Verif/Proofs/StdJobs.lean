import Verif.Proofs.Jobs
import Verif.Proofs.Geometry
/-
The standard converters: every batch stores its texels, and all batches together store the image in
row-major order.
-/
namespace Cuttlefish

/-- Bytes per texel of a standard converter. -/
def Conv.texelSize (k : Conv) : Nat := k.elem.2 * k.elem.1

/-- The encoding of texel number `t` in row-major order. -/
def texelNo (X : Ext) (k : Conv) (img : FImg) (t : Nat) : Res (List UInt8) :=
  texelBytes X k (img.px (t % img.width) (t / img.width))

theorem u32_lt {n : Nat} (h : n < pow32) : u32 n = n := Nat.mod_eq_of_lt h

theorem stdLoop_eq (X : Ext) (k : Conv) (img : FImg) (x base : Nat)
    (hlen : ∀ p bs, texelBytes X k p = .ok bs → bs.length = k.texelSize)
    (hN : img.width * img.height + 31 < pow32) (hx : 32 * x < img.width * img.height) :
    ∀ n i row, i + n = 32 → 32 * x + i ≤ img.width * img.height →
      (i = 0 → row = 32 * x / img.width) → (0 < i → row = (32 * x + i - 1) / img.width) →
      stdLoop X k img x base n i row = (do
        let bs ← mapRes (texelNo X k img)
          (List.range' (32 * x + i) (min n (img.width * img.height - (32 * x + i))))
        pure (writesAt (base + i * k.texelSize) bs.flatten)) := by
  intro n
  have hw : 0 < img.width := by
    by_contra h
    have : img.width = 0 := by omega
    rw [this] at hx; simp at hx
  have hcomm : img.height * img.width = img.width * img.height := Nat.mul_comm _ _
  induction n with
  | zero => intro i row _ _ _ _; simp [stdLoop, mapRes, writesAt]
  | succ n ih =>
    intro i row hi hle h0 hpos
    have hu : u32 (u32 (x * batchSize) + i) = 32 * x + i := by
      rw [show x * batchSize = 32 * x from Nat.mul_comm _ _, u32_lt (n := 32 * x) (by omega),
        u32_lt (by omega)]
    simp only [stdLoop, hu]
    by_cases hend : 32 * x + i = img.width * img.height
    · -- past the last texel
      have hi0 : 0 < i := by omega
      have hrow := hpos hi0
      have hcur : (32 * x + i) / img.width = img.height := by
        rw [hend, Nat.mul_div_cancel_left _ hw]
      have hne : (32 * x + i) / img.width ≠ row := by
        rw [hcur, hrow]
        have : (32 * x + i - 1) / img.width < img.height := by
          rw [Nat.div_lt_iff_lt_mul hw, hcomm]; omega
        omega
      rw [if_pos ⟨hne, by omega⟩]
      rw [show img.width * img.height - (32 * x + i) = 0 by omega]
      simp [mapRes, writesAt]
    · have hlt : 32 * x + i < img.width * img.height := by omega
      have hcur : (32 * x + i) / img.width < img.height := by
        rw [Nat.div_lt_iff_lt_mul hw, hcomm]; exact hlt
      rw [if_neg (by omega)]
      have hread : img.read ((32 * x + i) % img.width) ((32 * x + i) / img.width) =
          .ok (img.px ((32 * x + i) % img.width) ((32 * x + i) / img.width)) := by
        unfold FImg.read
        rw [if_pos ⟨hcur, Nat.mod_lt _ hw⟩]
      rw [hread, Res.ok_bind]
      rw [ih (i + 1) ((32 * x + i) / img.width) (by omega) (by omega) (by omega) (fun _ => rfl)]
      have hr : List.range' (32 * x + i) (min (n + 1) (img.width * img.height - (32 * x + i))) =
          (32 * x + i) :: List.range' (32 * x + (i + 1))
            (min n (img.width * img.height - (32 * x + (i + 1)))) := by
        rw [show min (n + 1) (img.width * img.height - (32 * x + i)) =
          min n (img.width * img.height - (32 * x + (i + 1))) + 1 by omega, List.range'_succ]
        rfl
      rw [hr]
      simp only [mapRes]
      show (do
        let bs ← texelNo X k img (32 * x + i)
        _) = _
      cases ht : texelNo X k img (32 * x + i) with
      | ub => rfl
      | ok bs =>
        have hbl := hlen _ _ ht
        simp only [Res.ok_bind]
        cases mapRes (texelNo X k img) (List.range' (32 * x + (i + 1))
            (min n (img.width * img.height - (32 * x + (i + 1))))) with
        | ub => rfl
        | ok ys =>
          simp only [Res.ok_bind, Res.pure_eq, List.flatten_cons, writesAt_append, hbl]
          have e1 : base + i * k.elem.2 * k.elem.1 = base + i * k.texelSize := by
            rw [Conv.texelSize, Nat.mul_assoc]
          have e2 : base + (i + 1) * k.texelSize = base + i * k.texelSize + k.texelSize := by
            rw [Nat.add_mul]; omega
          rw [e1, e2]

/-- The bytes batch `x` stores. -/
def batchBytes (X : Ext) (k : Conv) (img : FImg) (j : Nat × Nat) : Res (List UInt8) := do
  let bs ← mapRes (texelNo X k img)
    (List.range' (32 * j.1) (min 32 (img.width * img.height - 32 * j.1)))
  pure bs.flatten

def batchLen (k : Conv) (img : FImg) (j : Nat × Nat) : Nat :=
  min 32 (img.width * img.height - 32 * j.1) * k.texelSize

theorem stdProcess_eq (X : Ext) (k : Conv) (img : FImg) (x : Nat)
    (hlen : ∀ p bs, texelBytes X k p = .ok bs → bs.length = k.texelSize)
    (hN : img.width * img.height + 31 < pow32)
    (hC : img.width * img.height * k.elem.2 ≤ pow32) (hC0 : 0 < k.elem.2)
    (hx : 32 * x < img.width * img.height) :
    stdProcess X k img x = (do
      let bs ← batchBytes X k img (x, 0)
      pure (writesAt (32 * x * k.texelSize) bs)) := by
  unfold stdProcess
  have e1 : u32 (x * batchSize) = 32 * x := by
    rw [show x * batchSize = 32 * x from Nat.mul_comm _ _, u32_lt (by omega)]
  have e2 : u32 (32 * x * k.elem.2) = 32 * x * k.elem.2 := by
    apply u32_lt
    exact lt_of_lt_of_le (Nat.mul_lt_mul_of_pos_right hx hC0) hC
  rw [e1, e2]
  rw [stdLoop_eq X k img x _ hlen hN hx batchSize 0 _ rfl (by omega) (fun _ => rfl)
    (fun h => absurd h (by omega))]
  simp only [batchBytes, Nat.add_zero, Nat.zero_mul, batchSize]
  rw [show 32 * x * k.elem.2 * k.elem.1 = 32 * x * k.texelSize by rw [Conv.texelSize, Nat.mul_assoc]]
  cases mapRes (texelNo X k img)
    (List.range' (32 * x) (min 32 (img.width * img.height - 32 * x))) <;> rfl

theorem flatten_len {bs : List (List UInt8)} {s : Nat} (h : ∀ b ∈ bs, b.length = s) :
    bs.flatten.length = bs.length * s := by
  induction bs with
  | nil => simp
  | cons b bs ih =>
    simp only [List.flatten_cons, List.length_append, List.length_cons,
      h b List.mem_cons_self, ih (fun b hb => h b (List.mem_cons_of_mem _ hb)), Nat.add_mul]
    omega

theorem mapRes_mem {α β : Type} {f : α → Res β} {as : List α} {bs : List β}
    (h : mapRes f as = .ok bs) {b : β} (hb : b ∈ bs) : ∃ a ∈ as, f a = .ok b := by
  obtain ⟨hl, hi⟩ := mapRes_ok_iff.1 h
  obtain ⟨i, hi', rfl⟩ := List.getElem_of_mem hb
  have hia : i < as.length := by omega
  exact ⟨as[i], List.getElem_mem hia, hi i _ _ (List.getElem?_eq_getElem hia)
    (List.getElem?_eq_getElem hi')⟩

theorem mapRes_length {α β : Type} {f : α → Res β} {as : List α} {bs : List β}
    (h : mapRes f as = .ok bs) : bs.length = as.length := (mapRes_ok_iff.1 h).1.symm

theorem batch_len {X : Ext} {k : Conv} {img : FImg} {j : Nat × Nat} {bs : List UInt8}
    (hlen : ∀ p bs, texelBytes X k p = .ok bs → bs.length = k.texelSize)
    (h : batchBytes X k img j = .ok bs) : bs.length = batchLen k img j := by
  unfold batchBytes at h
  rw [Res.bind_eq_ok] at h
  obtain ⟨ys, h1, h2⟩ := h
  simp only [Res.pure_eq, Res.ok.injEq] at h2
  subst h2
  rw [flatten_len (s := k.texelSize) (fun b hb => by
    obtain ⟨t, _, ht⟩ := mapRes_mem h1 hb
    exact hlen _ _ ht), mapRes_length h1, List.length_range']
  rfl

/-- The 32-bit size conditions under which the standard converters compute the intended offsets. -/
structure StdFits (k : Conv) (img : FImg) : Prop where
  jobs : img.width * img.height + 31 < pow32
  offsets : img.width * img.height * k.elem.2 ≤ pow32
  chan : 0 < k.elem.2

theorem std_consec {X : Ext} {k : Conv} {img : FImg}
    (hlen : ∀ p bs, texelBytes X k p = .ok bs → bs.length = k.texelSize)
    (hf : StdFits k img) (n : Nat) : ∀ x0, 32 * (x0 + n) < img.width * img.height + 32 →
    Consec (fun x _ => stdProcess X k img x) (batchBytes X k img) (batchLen k img)
      (32 * x0 * k.texelSize) ((List.range' x0 n).map (fun x => (x, 0))) := by
  induction n with
  | zero => intro x0 _; trivial
  | succ n ih =>
    intro x0 h
    rw [List.range'_succ, List.map_cons]
    refine ⟨stdProcess_eq X k img x0 hlen hf.jobs hf.offsets hf.chan (by omega),
      fun bs hb => batch_len hlen hb, ?_⟩
    cases n with
    | zero => trivial
    | succ n =>
      have : 32 * x0 * k.texelSize + batchLen k img (x0, 0) = 32 * (x0 + 1) * k.texelSize := by
        unfold batchLen
        rw [show min 32 (img.width * img.height - 32 * (x0, 0).1) = 32 by simp only; omega,
          ← Nat.add_mul]
        congr 1
      rw [this]
      exact ih (x0 + 1) (by omega)

theorem batch_sum (k : Conv) (img : FImg) (n : Nat) : ∀ x0,
    img.width * img.height ≤ 32 * (x0 + n) →
    (((List.range' x0 n).map (fun x => (x, 0))).map (batchLen k img)).sum =
      (img.width * img.height - 32 * x0) * k.texelSize := by
  induction n with
  | zero => intro x0 h; simp [show img.width * img.height - 32 * x0 = 0 by omega]
  | succ n ih =>
    intro x0 h
    simp only [List.range'_succ, List.map_cons, List.sum_cons]
    rw [ih (x0 + 1) (by omega)]
    simp only [batchLen]
    rw [← Nat.add_mul]
    congr 1
    omega

theorem batch_all (X : Ext) (k : Conv) (img : FImg) (n : Nat) : ∀ x0,
    img.width * img.height ≤ 32 * (x0 + n) → 32 * (x0 + n) < img.width * img.height + 32 →
    (do
      let bs ← mapRes (batchBytes X k img) ((List.range' x0 n).map (fun x => (x, 0)))
      pure bs.flatten : Res (List UInt8)) = (do
      let bs ← mapRes (texelNo X k img) (List.range' (32 * x0) (img.width * img.height - 32 * x0))
      pure bs.flatten) := by
  induction n with
  | zero =>
    intro x0 h _
    simp [show img.width * img.height - 32 * x0 = 0 by omega, mapRes]
  | succ n ih =>
    intro x0 h h2
    have hsplit : List.range' (32 * x0) (img.width * img.height - 32 * x0) =
        List.range' (32 * x0) (min 32 (img.width * img.height - 32 * x0)) ++
        List.range' (32 * (x0 + 1)) (img.width * img.height - 32 * (x0 + 1)) := by
      by_cases hl : 32 * (x0 + 1) ≤ img.width * img.height
      · rw [show img.width * img.height - 32 * x0 = 32 +
          (img.width * img.height - 32 * (x0 + 1)) by omega, ← List.range'_append]
        congr 2
        omega
      · rw [show img.width * img.height - 32 * (x0 + 1) = 0 by omega,
          show min 32 (img.width * img.height - 32 * x0) = img.width * img.height - 32 * x0 by omega]
        simp
    rw [hsplit, mapRes_append]
    simp only [List.range'_succ, List.map_cons, mapRes]
    have hb : batchBytes X k img (x0, 0) = (do
      let bs ← mapRes (texelNo X k img)
        (List.range' (32 * x0) (min 32 (img.width * img.height - 32 * x0)))
      pure bs.flatten) := rfl
    rw [hb]
    cases mapRes (texelNo X k img)
        (List.range' (32 * x0) (min 32 (img.width * img.height - 32 * x0))) with
    | ub => rfl
    | ok as =>
      simp only [Res.ok_bind, Res.pure_eq]
      have := ih (x0 + 1) (by omega) (by omega)
      cases h1 : mapRes (batchBytes X k img) ((List.range' (x0 + 1) n).map (fun x => (x, 0))) with
      | ub =>
        rw [h1] at this
        cases h2 : mapRes (texelNo X k img)
            (List.range' (32 * (x0 + 1)) (img.width * img.height - 32 * (x0 + 1))) with
        | ub => rfl
        | ok ys => rw [h2] at this; simp at this
      | ok bs =>
        rw [h1] at this
        cases h2 : mapRes (texelNo X k img)
            (List.range' (32 * (x0 + 1)) (img.width * img.height - 32 * (x0 + 1))) with
        | ub => rw [h2] at this; simp at this
        | ok ys =>
          rw [h2] at this
          simp only [Res.ok_bind, Res.pure_eq, Res.ok.injEq] at this
          simp [this]

theorem jobList_one (n : Nat) : jobList n 1 = (List.range' 0 n).map (fun x => (x, 0)) := by
  simp [jobList, List.range_eq_range']

/-- A standard conversion stores the texels in row-major order and nothing else. -/
theorem std_encode (X : Ext) (k : Conv) (a : ConvArgs) (img : FImg) (hk : k.isStandard = true)
    (hlen : ∀ p bs, texelBytes X k p = .ok bs → bs.length = k.texelSize) (hf : StdFits k img) :
    encodeImage X k a img = (do
      let bs ← mapRes (texelNo X k img) (List.range (img.width * img.height))
      pure bs.flatten) := by
  have hN : u32 (img.width * img.height) = img.width * img.height := u32_lt (by have := hf.jobs; omega)
  have hX : k.jobsX img = (img.width * img.height + 31) / 32 := by
    have : k.jobsX img = u32 (u32 (img.width * img.height) + (batchSize - 1)) / batchSize := by
      cases k <;> first | rfl | simp [Conv.isStandard] at hk
    rw [this, hN, show batchSize - 1 = 31 from rfl, u32_lt hf.jobs]
    rfl
  have hY : k.jobsY img = 1 := by
    cases k <;> first | rfl | simp [Conv.isStandard] at hk
  have hS : k.initSize a img = img.width * img.height * k.texelSize := by
    have : k.initSize a img = u32 (img.width * img.height) * k.elem.1 * k.elem.2 := by
      cases k <;> first | rfl | simp [Conv.isStandard] at hk
    rw [this, hN, Conv.texelSize, Nat.mul_assoc, Nat.mul_comm k.elem.1]
  have hP : k.process X a img = fun x _ => stdProcess X k img x := by
    cases k <;> first | rfl | simp [Conv.isStandard] at hk
  have hE : encodeImage X k a img = (do
      let jobs ← makeJobs (k.jobsX img) (k.jobsY img)
      runJobs (k.process X a img) jobs (List.replicate (k.initSize a img) 0)) := by
    cases k <;> first | rfl | simp [Conv.isStandard] at hk
  have hj := hf.jobs
  rw [hE, hX, hY, hP, hS]
  unfold makeJobs
  rw [if_pos (by omega), Res.ok_bind, jobList_one]
  have hc := std_consec hlen hf ((img.width * img.height + 31) / 32) 0 (by omega)
  rw [Nat.mul_zero, Nat.zero_mul] at hc
  rw [runJobs_full _ _ hc (by
    rw [batch_sum k img _ 0 (by omega), List.length_replicate, Nat.mul_zero, Nat.sub_zero])]
  rw [batch_all X k img _ 0 (by omega) (by omega)]
  simp [List.range_eq_range']

end Cuttlefish
