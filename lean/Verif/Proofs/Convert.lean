import Verif.Proofs.Store
namespace Cuttlefish
variable {Img : Type}

theorem valid_iff_converter (c : Features) (f : Format) (t : TType) :
    isFormatValid c f t = (createConverter c f t).isSome := by
  obtain ⟨a, b, c, d⟩ := c
  cases f <;> cases t <;> revert a b c d <;> decide

theorem convFaces_some {c : Features} {enc : Encoder Img} {a : ConvArgs} {k : Conv}
    (hk : createConverter c a.format a.type = some k) :
    ∀ gs : List (Option Img), (∀ g ∈ gs, ∃ i, g = some i ∧ enc k a i ≠ .ub) →
      ∃ bs : List (List UInt8),
        convFaces c enc a gs = .ok (true, List.replicate gs.length none, bs) ∧
        bs.length = gs.length ∧
        ∀ (n : Nat) (i : Img), gs[n]? = some (some i) → ∃ b, bs[n]? = some b ∧ enc k a i = .ok b
  | [], _ => ⟨[], by simp [convFaces]⟩
  | g :: gs, h => by
    obtain ⟨i, rfl, hi⟩ := h g (by simp)
    obtain ⟨bs, h1, h2, h3⟩ := convFaces_some hk gs (fun g hg => h g (by simp [hg]))
    cases hb : enc k a i with
    | ub => exact absurd hb hi
    | ok b =>
      refine ⟨b :: bs, ?_, by simp [h2], ?_⟩
      · simp [convFaces, hk, hb, h1, List.replicate_succ]
      · intro n j hn
        cases n with
        | zero => simp at hn; subst hn; exact ⟨b, by simp, hb⟩
        | succ n => simpa using h3 n j (by simpa using hn)

theorem convDepths_some {c : Features} {enc : Encoder Img} {a : ConvArgs} {k : Conv}
    (hk : createConverter c a.format a.type = some k) :
    ∀ ds : List (List (Option Img)),
      (∀ fs ∈ ds, ∀ g ∈ fs, ∃ i, g = some i ∧ enc k a i ≠ .ub) →
      ∃ bs : List (List (List UInt8)), convDepths c enc a ds =
          .ok (true, ds.map (fun fs => List.replicate fs.length none), bs) ∧
        bs.map List.length = ds.map List.length ∧
        ∀ (d f : Nat) (i : Img), ((ds[d]?).bind fun fs => fs[f]?) = some (some i) →
          ∃ b, ((bs[d]?).bind fun fs => fs[f]?) = some b ∧ enc k a i = .ok b
  | [], _ => ⟨[], by simp [convDepths]⟩
  | fs :: ds, h => by
    obtain ⟨b1, h1, h2, h3⟩ := convFaces_some hk fs (h fs (by simp))
    obtain ⟨bs, g1, g2, g3⟩ := convDepths_some hk ds (fun fs hf => h fs (by simp [hf]))
    refine ⟨b1 :: bs, ?_, by simp [g2, h2], ?_⟩
    · simp [convDepths, h1, g1]
    · intro d f i hd
      cases d with
      | zero => simpa using h3 f i (by simpa using hd)
      | succ d => simpa using g3 d f i (by simpa using hd)

theorem convMips_some {c : Features} {enc : Encoder Img} {a : ConvArgs} {k : Conv}
    (hk : createConverter c a.format a.type = some k) :
    ∀ ms : Store (Option Img),
      (∀ ds ∈ ms, ∀ fs ∈ ds, ∀ g ∈ fs, ∃ i, g = some i ∧ enc k a i ≠ .ub) →
      ∃ bs : Store (List UInt8), convMips c enc a ms =
          .ok (true, List.map (List.map (fun fs => List.replicate fs.length none)) ms, bs) ∧
        List.map (List.map List.length) bs = List.map (List.map List.length) ms ∧
        ∀ m d f i, ms.at? m d f = some (some i) →
          ∃ b, bs.at? m d f = some b ∧ enc k a i = .ok b
  | [], _ => ⟨[], by simp [convMips, Store.at?]⟩
  | ds :: ms, h => by
    obtain ⟨b1, h1, h2, h3⟩ := convDepths_some hk ds (h ds (by simp))
    obtain ⟨bs, g1, g2, g3⟩ := convMips_some hk ms (fun fs hf => h fs (by simp [hf]))
    refine ⟨b1 :: bs, ?_, by simp [g2, h2], ?_⟩
    · simp [convMips, h1, g1]
    · intro m d f i hd
      cases m with
      | zero => 
        rw [Store.at?_cons_zero] at hd ⊢
        exact h3 d f i hd
      | succ m =>
        rw [Store.at?_cons_succ] at hd ⊢
        exact g3 m d f i hd

theorem imagesComplete_iff {i : TexImpl Img} :
    Tex.imagesComplete (some i) = true ↔
      ∀ ds ∈ i.images, ∀ fs ∈ ds, ∀ g ∈ fs, ∃ x : Img, g = some x := by
  simp [Tex.imagesComplete, List.all_eq_true, Option.isSome_iff_exists]

/-- With a converter, loops that are defined succeed and every encoder call in them was defined. -/
theorem convFaces_inv {c : Features} {enc : Encoder Img} {a : ConvArgs} {k : Conv}
    (hk : createConverter c a.format a.type = some k) : ∀ (gs : List (Option Img)) {p},
    convFaces c enc a gs = .ok p → p.1 = true ∧ ∀ g, some g ∈ gs → enc k a g ≠ .ub
  | [], p, h => by simp [convFaces] at h; subst h; simp
  | g :: gs, p, h => by
    simp only [convFaces, hk] at h
    cases g with
    | none => simp at h
    | some i =>
      simp only [Res.bind_eq_ok] at h
      obtain ⟨b, hb, ⟨ok, gs', bs⟩, h1, h2⟩ := h
      simp only [Res.pure_eq, Res.ok.injEq] at h2
      obtain ⟨e1, e2⟩ := convFaces_inv hk gs h1
      subst h2
      refine ⟨e1, ?_⟩
      intro g hg
      rcases List.mem_cons.1 hg with hg | hg
      · simp only [Option.some.injEq] at hg; subst hg; rw [hb]; simp
      · exact e2 g hg

theorem convDepths_inv {c : Features} {enc : Encoder Img} {a : ConvArgs} {k : Conv}
    (hk : createConverter c a.format a.type = some k) : ∀ (ds : List (List (Option Img))) {p},
    convDepths c enc a ds = .ok p → p.1 = true ∧ ∀ fs ∈ ds, ∀ g, some g ∈ fs → enc k a g ≠ .ub
  | [], p, h => by simp [convDepths] at h; subst h; simp
  | fs :: ds, p, h => by
    simp only [convDepths, Res.bind_eq_ok] at h
    obtain ⟨⟨ok, fs', bs⟩, h1, h2⟩ := h
    obtain ⟨e1, e2⟩ := convFaces_inv hk fs h1
    simp only at e1
    simp only [e1, if_true, Res.bind_eq_ok] at h2
    obtain ⟨⟨ok', ds', bss⟩, h3, h4⟩ := h2
    obtain ⟨e3, e4⟩ := convDepths_inv hk ds h3
    simp only [Res.pure_eq, Res.ok.injEq] at h4
    subst h4
    refine ⟨e3, ?_⟩
    intro x hx
    rcases List.mem_cons.1 hx with rfl | hx
    · exact e2
    · exact e4 x hx

theorem convMips_inv {c : Features} {enc : Encoder Img} {a : ConvArgs} {k : Conv}
    (hk : createConverter c a.format a.type = some k) : ∀ (ms : Store (Option Img)) {p},
    convMips c enc a ms = .ok p →
      p.1 = true ∧ ∀ ds ∈ ms, ∀ fs ∈ ds, ∀ g, some g ∈ fs → enc k a g ≠ .ub
  | [], p, h => by simp [convMips] at h; subst h; simp
  | ds :: ms, p, h => by
    simp only [convMips, Res.bind_eq_ok] at h
    obtain ⟨⟨ok, ds', bs⟩, h1, h2⟩ := h
    obtain ⟨e1, e2⟩ := convDepths_inv hk ds h1
    simp only at e1
    simp only [e1, if_true, Res.bind_eq_ok] at h2
    obtain ⟨⟨ok', ms', bss⟩, h3, h4⟩ := h2
    obtain ⟨e3, e4⟩ := convMips_inv hk ms h3
    simp only [Res.pure_eq, Res.ok.injEq] at h4
    subst h4
    refine ⟨e3, ?_⟩
    intro x hx
    rcases List.mem_cons.1 hx with rfl | hx
    · exact e2
    · exact e4 x hx

end Cuttlefish
