import Verif.Spec.File
import Verif.Proofs.Basic
/-
Running the operations of a saver on any device.
-/
namespace Cuttlefish
variable {Img : Type}

/-- The bytes of all writes. -/
def written : List Act → List UInt8
  | [] => []
  | .write bs :: as => bs ++ written as
  | .check :: as => written as

theorem written_append (a b : List Act) : written (a ++ b) = written a ++ written b := by
  induction a with
  | nil => rfl
  | cons x xs ih => cases x <;> simp [written, ih]

theorem written_flatMap {α : Type} (xs : List α) (g : α → List Act) :
    written (xs.flatMap g) = xs.flatMap (fun x => written (g x)) := by
  induction xs with
  | nil => rfl
  | cons x xs ih => simp [written_append, ih]

@[simp] theorem written_emit (bs : List UInt8) : written (emit bs) = bs := by simp [emit, written]
@[simp] theorem written_emit32 (n : Nat) : written (emit32 n) = leBytes 4 n := by simp [emit32]

/-- The last operation is a test of the stream. -/
def Checked (as : List Act) : Prop := as = [] ∨ ∃ bs, as = bs ++ [.check]

theorem checked_nil : Checked [] := Or.inl rfl

theorem checked_append {a b : List Act} (ha : Checked a) (hb : Checked b) : Checked (a ++ b) := by
  rcases hb with rfl | ⟨bs, rfl⟩
  · simpa using ha
  · exact Or.inr ⟨a ++ bs, by simp⟩

theorem checked_emit (bs : List UInt8) : Checked (emit bs) := Or.inr ⟨[.write bs], rfl⟩

theorem checked_emit32 (n : Nat) : Checked (emit32 n) := checked_emit _

theorem checked_flatten {ls : List (List Act)} (h : ∀ l ∈ ls, Checked l) : Checked ls.flatten := by
  induction ls with
  | nil => exact checked_nil
  | cons l ls ih =>
    rw [List.flatten_cons]
    exact checked_append (h l (by simp)) (ih (fun x hx => h x (by simp [hx])))

theorem mapRes_mem {α β : Type} {f : α → Res β} : ∀ {xs : List α} {ys : List β},
    mapRes f xs = .ok ys → ∀ y ∈ ys, ∃ x ∈ xs, f x = .ok y := by
  intro xs
  induction xs with
  | nil => intro ys h y hy; simp only [mapRes, Res.ok.injEq] at h; subst h; simp at hy
  | cons x xs ih =>
    intro ys h y hy
    simp only [mapRes, Res.bind_eq_ok] at h
    obtain ⟨a, h1, b, h2, h3⟩ := h
    simp only [Res.pure_eq, Res.ok.injEq] at h3
    subst h3
    rcases List.mem_cons.1 hy with rfl | hy
    · exact ⟨x, by simp, h1⟩
    · obtain ⟨x', hx', h'⟩ := ih h2 y hy
      exact ⟨x', by simp [hx'], h'⟩

theorem checked_actsFor {α : Type} {xs : List α} {body : α → Res (List Act)} {as : List Act}
    (h : actsFor xs body = .ok as) (hb : ∀ x a, body x = .ok a → Checked a) : Checked as := by
  simp only [actsFor, Res.bind_eq_ok] at h
  obtain ⟨ys, h1, h2⟩ := h
  simp only [Res.pure_eq, Res.ok.injEq] at h2
  subst h2
  apply checked_flatten
  intro l hl
  obtain ⟨x, -, hx⟩ := mapRes_mem h1 l hl
  exact hb x l hx

theorem mapRes_ok {α β : Type} {f : α → Res β} {g : α → β} : ∀ {xs : List α},
    (∀ x ∈ xs, f x = .ok (g x)) → mapRes f xs = .ok (xs.map g) := by
  intro xs
  induction xs with
  | nil => intro _; rfl
  | cons x xs ih =>
    intro h
    simp only [mapRes]
    rw [h x (by simp), ih (fun y hy => h y (by simp [hy]))]
    rfl

theorem actsFor_ok {α : Type} {xs : List α} {body : α → Res (List Act)} {g : α → List Act}
    (h : ∀ x ∈ xs, body x = .ok (g x)) : actsFor xs body = .ok (xs.flatMap g) := by
  simp only [actsFor]
  rw [mapRes_ok h, List.flatMap_def]
  rfl

/-- On a device that never fails everything is written. -/
theorem runActs_perfect (as : List Act) : ∀ (b : List UInt8),
    runActs Device.perfect as ⟨b, true⟩ = (.Success, ⟨b ++ written as, true⟩) := by
  induction as with
  | nil => intro b; simp [runActs, written]
  | cons a as ih =>
    intro b
    cases a with
    | write bs => simp [runActs, OStream.write, Device.perfect, written, ih]
    | check => simp [runActs, written, ih]

/-- A bad stream stays as it is. -/
theorem runActs_bad (D : Device) (as : List Act) : ∀ (b : List UInt8),
    (runActs D as ⟨b, false⟩).2 = ⟨b, false⟩ ∧
    (Act.check ∈ as → (runActs D as ⟨b, false⟩).1 = .WriteError) := by
  induction as with
  | nil => intro b; simp [runActs]
  | cons a as ih =>
    intro b
    cases a with
    | write bs =>
      simp only [runActs, OStream.write, Bool.false_eq_true, if_false, List.mem_cons, reduceCtorEq,
        false_or]
      exact ih b
    | check => simp [runActs]

/-- On any device: either everything was accepted, or the stream went bad and the accepted bytes are
a beginning of the file; with a test at the end, the second case is reported. -/
theorem runActs_any (D : Device) (as : List Act) : ∀ (b : List UInt8),
    (runActs D as ⟨b, true⟩ = (.Success, ⟨b ++ written as, true⟩)) ∨
    ((runActs D as ⟨b, true⟩).2.good = false ∧
      (∃ p, p <+: written as ∧ (runActs D as ⟨b, true⟩).2.bytes = b ++ p) ∧
      (Checked as → (runActs D as ⟨b, true⟩).1 = .WriteError)) := by
  induction as with
  | nil => intro b; left; simp [runActs, written]
  | cons a as ih =>
    intro b
    cases a with
    | check =>
      simp only [runActs, if_true, written]
      rcases ih b with h | ⟨h1, h2, h3⟩
      · exact Or.inl h
      · refine Or.inr ⟨h1, h2, fun hc => ?_⟩
        rcases hc with hc | ⟨bs, hc⟩
        · simp at hc
        · rcases bs with _ | ⟨x, bs⟩
          · simp only [List.nil_append, List.cons.injEq, true_and] at hc
            exact h3 (Or.inl hc)
          · simp only [List.cons_append, List.cons.injEq] at hc
            exact h3 (Or.inr ⟨bs, hc.2⟩)
    | write bs =>
      have hchk : Checked (.write bs :: as) → Checked as ∧ Act.check ∈ as := by
        rintro (hc | ⟨cs, hc⟩)
        · simp at hc
        · rcases cs with _ | ⟨x, cs⟩
          · simp at hc
          · simp only [List.cons_append, List.cons.injEq] at hc
            exact ⟨Or.inr ⟨cs, hc.2⟩, by rw [hc.2]; simp⟩
      simp only [runActs, OStream.write, if_true, written]
      cases hD : D b bs with
      | none =>
        simp only
        rcases ih (b ++ bs) with h | ⟨h1, ⟨p, h2, h3⟩, h4⟩
        · left; rw [h]; simp
        · exact Or.inr ⟨h1, ⟨bs ++ p, by simpa using h2, by rw [h3]; simp⟩, fun hc => h4 (hchk hc).1⟩
      | some k =>
        simp only
        obtain ⟨e1, e2⟩ := runActs_bad D as (b ++ bs.take k)
        refine Or.inr ⟨by rw [e1], ⟨bs.take k, ?_, by rw [e1]⟩, fun hc => e2 (hchk hc).2⟩
        exact (List.take_prefix k bs).trans (List.prefix_append _ _)

theorem checked_ktxRows {data : List UInt8} {r p h : Nat} {as : List Act}
    (e : ktxRows data r p h = .ok as) : Checked as := by
  refine checked_actsFor e (fun y a ha => ?_)
  split at ha
  · simp only [Res.ok.injEq] at ha
    subst ha
    exact Or.inr ⟨_, rfl⟩
  · simp at ha

theorem checked_ktxSurface {t : Tex Img} {c : Bool} {fs m d f : Nat} {as : List Act}
    (e : ktxSurface t c fs m d f = .ok as) : Checked as := by
  simp only [ktxSurface, Res.bind_eq_ok] at e
  obtain ⟨data, -, e⟩ := e
  split at e
  · simp only [Res.pure_eq, Res.ok.injEq] at e
    subst e; exact checked_emit _
  · simp only [Res.bind_eq_ok] at e
    obtain ⟨w, -, h, -, e⟩ := e
    exact checked_ktxRows e

theorem checked_ktxActs {info : KtxInfo} {t : Tex Img} {as : List Act} (e : ktxActs info t = .ok as) :
    Checked as := by
  simp only [ktxActs, Res.bind_eq_ok] at e
  obtain ⟨fm, -, w, -, h, -, d, -, ls, e1, e⟩ := e
  simp only [Res.pure_eq, Res.ok.injEq] at e
  subst e
  refine checked_append ?_ (checked_actsFor e1 ?_)
  · repeat' (first | apply checked_append | exact checked_emit _ | exact checked_emit32 _)
  · intro m a ha
    simp only [ktxLevel, Res.bind_eq_ok] at ha
    obtain ⟨_, -, _, -, body, hb, ha⟩ := ha
    simp only [Res.pure_eq, Res.ok.injEq] at ha
    subst ha
    refine checked_append (checked_emit32 _) (checked_actsFor hb ?_)
    intro d a ha
    exact checked_actsFor ha (fun f a ha => checked_ktxSurface ha)

theorem checked_ddsActs {n : Nat} {t : Tex Img} {as : List Act} (e : ddsActs n t = .ok as) :
    Checked as := by
  simp only [ddsActs, Res.bind_eq_ok] at e
  obtain ⟨h, -, h10, -, body, hb, e⟩ := e
  simp only [Res.pure_eq, Res.ok.injEq] at e
  subst e
  refine checked_append ?_ ?_
  · repeat' (first | apply checked_append | exact checked_emit _ | exact checked_emit32 _)
  · simp only [ddsSurfaces, Res.bind_eq_ok] at hb
    obtain ⟨d, -, hb⟩ := hb
    refine checked_actsFor hb (fun _ a ha => checked_actsFor ha (fun _ a ha => checked_actsFor ha
      (fun _ a ha => ?_)))
    simp only [Res.bind_eq_ok] at ha
    obtain ⟨_, -, ha⟩ := ha
    refine checked_actsFor ha (fun _ a ha => ?_)
    simp only [Res.bind_eq_ok] at ha
    obtain ⟨b, -, ha⟩ := ha
    simp only [Res.pure_eq, Res.ok.injEq] at ha
    subst ha
    exact checked_emit _

theorem checked_pvrMeta (k : Nat) : Checked (pvrMeta k) := by
  unfold pvrMeta
  repeat' (first | apply checked_append | exact checked_emit _ | exact checked_emit32 _)

theorem checked_pvrMetadata (t : Tex Img) : Checked (pvrMetadata t) := by
  unfold pvrMetadata
  simp only
  split
  · repeat' (first | apply checked_append | exact checked_emit32 _)
    all_goals (split <;> first | exact checked_pvrMeta _ | exact checked_nil)
  · exact checked_emit32 _

theorem checked_pvrActs {n : Nat} {t : Tex Img} {as : List Act} (e : pvrActs n t = .ok as) :
    Checked as := by
  simp only [pvrActs, Res.bind_eq_ok] at e
  obtain ⟨w, -, h, -, d, -, body, hb, e⟩ := e
  simp only [Res.pure_eq, Res.ok.injEq] at e
  subst e
  refine checked_append ?_ ?_
  · repeat' (first | apply checked_append | exact checked_emit _ | exact checked_emit32 _ |
      exact checked_pvrMetadata t)
  · refine checked_actsFor hb (fun _ a ha => ?_)
    simp only [Res.bind_eq_ok] at ha
    obtain ⟨_, -, ha⟩ := ha
    refine checked_actsFor ha (fun _ a ha => checked_actsFor ha (fun _ a ha => ?_))
    simp only [Res.bind_eq_ok] at ha
    obtain ⟨b, -, ha⟩ := ha
    simp only [Res.pure_eq, Res.ok.injEq] at ha
    subst ha
    exact checked_emit _

/-- The operations `save` performs, if it gets as far as writing. -/
def saveActs (t : Tex Img) : FileType → Option (Res (List Act))
  | .DDS => if ddsFormat t.format t.type t.colorSpace = DXGI_UNKNOWN then none
      else some (ddsActs (ddsFormat t.format t.type t.colorSpace) t)
  | .KTX => (ktxInfo t.format t.type t.colorSpace).map (fun i => ktxActs i t)
  | .PVR => (pvrPixelFormat t.format t.alphaType).map (fun p => pvrActs p t)
  | .Auto => none

/-- `save` runs those operations, or returns an error without touching the stream. -/
theorem save_eq (D : Device) (t : Tex Img) (ft : FileType) (s : OStream) :
    t.save D ft s =
      if t.converted = false then .ok (.Invalid, s)
      else match saveActs t ft with
        | none => .ok (if ft = .Auto then .UnknownFormat else .Unsupported, s)
        | some r => r >>= fun as => .ok (runActs D as s) := by
  unfold Tex.save
  cases hc : t.converted
  · simp
  · cases ft with
    | Auto => simp [saveActs]
    | DDS =>
      simp only [saveDds, saveActs]
      by_cases h : ddsFormat t.format t.type t.colorSpace = DXGI_UNKNOWN <;> simp [h]
    | KTX =>
      simp only [saveKtx, saveActs]
      cases h : ktxInfo t.format t.type t.colorSpace <;> simp [h]
    | PVR =>
      simp only [savePvr, saveActs]
      cases h : pvrPixelFormat t.format t.alphaType <;> simp [h]

theorem checked_save {t : Tex Img} {ft : FileType} {as : List Act}
    (h : saveActs t ft = some (.ok as)) : Checked as := by
  cases ft with
  | Auto => simp [saveActs] at h
  | DDS =>
    simp only [saveActs] at h
    split at h
    · simp at h
    · simp only [Option.some.injEq] at h; exact checked_ddsActs h
  | KTX =>
    simp only [saveActs, Option.map_eq_some_iff] at h
    obtain ⟨i, -, h⟩ := h
    exact checked_ktxActs h
  | PVR =>
    simp only [saveActs, Option.map_eq_some_iff] at h
    obtain ⟨i, -, h⟩ := h
    exact checked_pvrActs h

theorem check_mem_emit (bs : List UInt8) (rest : List Act) : Act.check ∈ emit bs ++ rest := by
  simp [emit]

theorem check_mem_save {t : Tex Img} {ft : FileType} {as : List Act}
    (h : saveActs t ft = some (.ok as)) : Act.check ∈ as := by
  cases ft with
  | Auto => simp [saveActs] at h
  | DDS =>
    simp only [saveActs] at h
    split at h
    · simp at h
    · simp only [Option.some.injEq, ddsActs, Res.bind_eq_ok] at h
      obtain ⟨_, -, _, -, _, -, h⟩ := h
      simp only [Res.pure_eq, Res.ok.injEq] at h
      subst h
      simp [emit32, emit]
  | KTX =>
    simp only [saveActs, Option.map_eq_some_iff] at h
    obtain ⟨i, -, h⟩ := h
    simp only [ktxActs, Res.bind_eq_ok] at h
    obtain ⟨_, -, _, -, _, -, _, -, _, -, h⟩ := h
    simp only [Res.pure_eq, Res.ok.injEq] at h
    subst h
    simp [emit32, emit]
  | PVR =>
    simp only [saveActs, Option.map_eq_some_iff] at h
    obtain ⟨i, -, h⟩ := h
    simp only [pvrActs, Res.bind_eq_ok] at h
    obtain ⟨_, -, _, -, _, -, _, -, h⟩ := h
    simp only [Res.pure_eq, Res.ok.injEq] at h
    subst h
    simp [emit32, emit]

/-- A successful save on the perfect device gives the operations. -/
theorem fullFile_acts {t : Tex Img} {ft : FileType} {full : List UInt8} (h : Spec.FullFile t ft full) :
    t.converted = true ∧ ∃ as, saveActs t ft = some (.ok as) ∧ written as = full := by
  unfold Spec.FullFile at h
  rw [save_eq] at h
  cases hc : t.converted
  · simp [hc] at h
  · rw [hc] at h
    simp only [Bool.true_eq_false, if_false] at h
    cases ha : saveActs t ft with
    | none => rw [ha] at h; simp at h; split at h <;> simp at h
    | some r =>
      rw [ha] at h
      cases r with
      | ub => simp at h
      | ok as =>
        simp only [Res.ok_bind, runActs_perfect, List.nil_append, Res.ok.injEq, Prod.mk.injEq,
          OStream.mk.injEq, true_and, and_true] at h
        exact ⟨rfl, as, rfl, h⟩

theorem save_run {t : Tex Img} {ft : FileType} {as : List Act} (hc : t.converted = true)
    (h : saveActs t ft = some (.ok as)) (D : Device) (s : OStream) :
    t.save D ft s = .ok (runActs D as s) := by
  rw [save_eq, hc, h]
  simp

/-- A device that accepts `n` bytes. -/
theorem runActs_failAfter (n : Nat) (as : List Act) (hc : Checked as) : ∀ (b : List UInt8),
    b.length ≤ n → runActs (Spec.failAfter n) as ⟨b, true⟩ =
      if b.length + (written as).length ≤ n then (.Success, ⟨b ++ written as, true⟩)
      else (.WriteError, ⟨(b ++ written as).take n, false⟩) := by
  induction as with
  | nil => intro b hb; simp [runActs, written, hb]
  | cons a as ih =>
    intro b hb
    cases a with
    | check =>
      simp only [runActs, if_true, written]
      refine ih ?_ b hb
      rcases hc with hc | ⟨bs, hc⟩
      · simp at hc
      · rcases bs with _ | ⟨x, bs⟩
        · simp only [List.nil_append, List.cons.injEq, true_and] at hc
          exact Or.inl hc
        · simp only [List.cons_append, List.cons.injEq] at hc
          exact Or.inr ⟨bs, hc.2⟩
    | write bs =>
      have hchk : Checked as ∧ Act.check ∈ as := by
        rcases hc with hc | ⟨cs, hc⟩
        · simp at hc
        · rcases cs with _ | ⟨x, cs⟩
          · simp at hc
          · simp only [List.cons_append, List.cons.injEq] at hc
            exact ⟨Or.inr ⟨cs, hc.2⟩, by rw [hc.2]; simp⟩
      have hw : written (.write bs :: as) = bs ++ written as := rfl
      rw [hw]
      by_cases hle : b.length + bs.length ≤ n
      · have hstep : runActs (Spec.failAfter n) (.write bs :: as) ⟨b, true⟩ =
            runActs (Spec.failAfter n) as ⟨b ++ bs, true⟩ := by
          simp [runActs, OStream.write, Spec.failAfter, hle]
        rw [hstep, ih hchk.1 (b ++ bs) (by simpa using hle)]
        simp [Nat.add_assoc]
      · have hstep : runActs (Spec.failAfter n) (.write bs :: as) ⟨b, true⟩ =
            runActs (Spec.failAfter n) as ⟨b ++ bs.take (n - b.length), false⟩ := by
          simp [runActs, OStream.write, Spec.failAfter, hle]
        obtain ⟨e1, e2⟩ := runActs_bad (Spec.failAfter n) as (b ++ bs.take (n - b.length))
        rw [hstep, if_neg (by simp only [List.length_append]; omega)]
        apply Prod.ext
        · exact e2 hchk.2
        · rw [e1]
          simp only [OStream.mk.injEq, and_true]
          rw [List.take_append, List.take_of_length_le hb, List.take_append_of_le_length (by omega)]

end Cuttlefish
