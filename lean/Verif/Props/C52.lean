import Verif.Proofs.Lossless
import Verif.Proofs.ToolFile
import Verif.Props.C43
import Verif.Props.C50
import Verif.Props.C51
/-
C52: an image of integers that the tool need not change is found in the file, pixel for pixel and without loss.

`sample`, `KeepsValues`, `CanHold`, `FieldHolds` and the assumption `ReadsWell` about FreeImage are in
`Verif/Spec/Lossless.lean`; `Containable`, `inFile`, `layerOf`, `faceOf` and `sliceOf` in `Verif/Spec/Written.lean`;
`FieldIs` in `Verif/Spec/Converted.lean`; `place`, `jobMoves` and `imageSize` in `Verif/Spec/Process.lean`.
-/
namespace Cuttlefish
open Spec
variable {σ : Type}

/-- Exit code 0, for a job that does not change colours: take any input image of integers that has the size of the
texture, any of its pixels and any channel that the format of the texture stores.  A reader of the container format
finds the surface of that image at its layer, face and slice, and in it, at the place where the rotation and the flips
of the job move the pixel, a field of that channel which holds the integer exactly, if it has bits enough.  The
alpha of opaque images is 1 in normalised textures.  With IEEE single precision in all steps, for all command
lines, images, sizes, file systems and encoders of other formats.

Partial: the texture must be one that the containers can hold (`Containable`, see `C51_fails_rows`), custom mips of 3D
textures must be complete (`CustomFor`, see `C43_fails_mixed`), sizes given as numbers must be usable (`GivenSizes`), and
the alpha of opaque images of 16-bit colours in integer textures is left open (it is 0, see `C52_fails_alpha`). -/
theorem C52_lossless_partial (Lm : Libm) {FI : FreeImage Dbl} (F : LawfulFI (Arith.ieee Lm) FI) (FW : FlipsWork FI)
    (RW : ReadsWell (Arith.ieee Lm) FI) {read : Str → ColorSpace → Img? Dbl} (R : LoadsWell (Arith.ieee Lm) read)
    (E : ToolEnv (Image Dbl) Dbl σ) (hE : E.load = loadAndProcess (Arith.ieee Lm) FI read)
    (hL : Lawful E.world.lib) (hS : SameImages E.world.lib) (X : Ext) (hX : CodecSizes X)
    (henc : E.world.enc = fun k a g => encodeImage X k a (asFloats g))
    (hclose : ∀ s bytes, E.disk.close s bytes = bytes.length) (argv : List Str) (s s' : σ)
    (hcount : ∀ c, parseCommandLine E.cmd argv = .ok (some (some c)) → c.images.length < 2 ^ 32)
    (h : toolMain E argv s = .ok (some 0, s')) :
    ∃ c images custom out full s1,
      parseCommandLine E.cmd argv = .ok (some (some c)) ∧
      loadImages E c = .ok (some (images, custom)) ∧ c.output = some out ∧ s' = E.disk.write s1 out full ∧
      (KeepsValues c → GivenSizes c → c.type ∈ [TType.UNorm, .UInt, .Int] →
        CustomFor E.world.lib c custom c.images.length →
        ∃ (p : Str) (first : Image Dbl) (size : ℕ × ℕ), c.images.head? = some p ∧
          read p c.imageColorSpace = some first ∧
          SizeFor first.bmp.width first.bmp.width first.bmp.height (sizeOfInt c.width) size.1 ∧
          SizeFor first.bmp.height first.bmp.width first.bmp.height (sizeOfInt c.height) size.2 ∧
          (Containable c c.images.length (imageSize c size 0).1 (imageSize c size 0).2 →
            ∀ (j : ℕ) p, c.images[j]? = some p → ∃ i bytes, read p c.imageColorSpace = some i ∧
              inFile c.fileType full 0 (layerOf c j) (faceOf c j) (sliceOf c j) = some bytes ∧
              ((i.bmp.width, i.bmp.height) = size → i.format ∈ sources →
                ∀ cs, layout c.format = some cs → ∀ x y, x < i.bmp.width → y < i.bmp.height →
                  ∀ ch n, (ch, n) ∈ cs → ∃ d,
                    FieldIs c.format bytes (imageSize c size 0).1 (place (jobMoves c) (size, (x, y))).2.1
                      (place (jobMoves c) (size, (x, y))).2.2 ch d ∧
                    (∀ m v, sample i.format (i.bmp.px (i.bmp.height - y - 1) x) ch = some (m, v) →
                      CanHold c.type n m → FieldHolds c.type n m v d) ∧
                    (c.type = .UNorm → ch = .A → i.format ∈ opaqueFormats → d = 2 ^ n - 1)))) := by
  have LA := lawful_ieee Lm
  have hsize : LoadsSmall E := loads_small LA F R hE (fun i => ⟨hS.width i, hS.height i⟩)
  have hview : ∀ g, (asFloats g).width = E.world.lib.width g ∧ (asFloats g).height = E.world.lib.height g :=
    fun g => ⟨(hS.width g).symm, (hS.height g).symm⟩
  have ho := C43_outcome_partial E argv s s' (some 0) hclose hsize hcount h
  generalize hcode : some 0 = code at ho
  cases ho with
  | exception => simp at hcode
  | usage => simp at hcode
  | notLoaded => simp at hcode
  | notConverted => simp at hcode
  | written c images custom outs t out ok s'' h1 h2 h3 h4 h5 =>
    cases ok with
    | false => simp at hcode
    | true =>
      have hl := loadImages_length h2
      dsimp only at hl
      have key : ∀ s0, Written E.disk t c.fileType out s0 true s' →
          ∃ full s1, FullFile t c.fileType full ∧ s' = E.disk.write s1 out full := by
        intro s0 hw
        cases hw with
        | complete full h1 h2 => exact ⟨full, s0, h2, rfl⟩
      obtain ⟨full, s1, hf, hs⟩ : ∃ full s1, FullFile t c.fileType full ∧ s' = E.disk.write s1 out full := by
        cases h5 with
        | first hw => exact key s (by assumption)
        | again s1 s2 => exact key s2 (by assumption)
      refine ⟨c, images, custom, out, full, s1, h1, h2, h4, hs, ?_⟩
      intro hk hg hty hcus
      have hv : ValidJob _ c := C33_job _ _ _ h1
      obtain ⟨p, first, size, e1, e2, e3, e4, p1, p2, each⟩ := loadImages_each R hE hg hv.images h2
      refine ⟨p, first, size, e1, e2, e3, e4, ?_⟩
      intro hcon
      have hhd : c.images = p :: c.images.tail := by
        cases hi : c.images with
        | nil => rw [hi] at e1; cases e1
        | cons q qs => rw [hi] at e1; cases e1; rfl
      -- the size of every image
      have asked : ∀ (j : ℕ) p g, c.images[j]? = some p → images[j]? = some (some g) →
          ∃ i, read p c.imageColorSpace = some i ∧ processLoaded (Arith.ieee Lm) FI c i size.1 size.2 0 = .ok (some g) ∧
            (g.bmp.width, g.bmp.height) = imageSize c size 0 := by
        intro j p g hp hg'
        obtain ⟨i, o, r1, r2, r3⟩ := each j p hp
        rw [hg'] at r2
        cases r2
        obtain ⟨w1, w2, w3⟩ := R _ _ _ r1
        refine ⟨i, r1, r3, (processLoaded_shape LA F w1 w2 ⟨w3.1, w3.2.1⟩ r3).2.2.1.trans ?_⟩
        exact lastSize_asked (fun ht => ht.2.2 (level_zero ⟨p1, p2⟩))
      have hn' : images.length < 2 ^ 32 := by rw [hl]; exact hcount c h1
      have hne : images ≠ [] := by
        intro he
        rw [he] at hl
        exact hv.images (List.length_eq_zero_iff.1 hl.symm)
      have hcon' : Containable c images.length (E.world.lib.widthO images.head?.join)
          (E.world.lib.heightO images.head?.join) := by
        obtain ⟨_, -, -, hims⟩ := job_images hL hn' hne (loadImages_size hsize h2) (fun e => hl.trans (hv.one e))
          (fun e => hl.trans (hv.cube e)) (fun e => hl ▸ hv.cubes e) hv.kind (hl ▸ hcus) h3
        obtain ⟨g, r, g1, -, -⟩ := hims 0 (List.length_pos_iff.2 hne)
        obtain ⟨i, -, -, sz⟩ := asked 0 p g (by rw [hhd]; rfl) g1
        have : images.head?.join = some g := by
          rw [List.head?_eq_getElem?, g1]
          rfl
        rw [this]
        show Containable c images.length (E.world.lib.width g) (E.world.lib.height g)
        rw [hl, hS.width, hS.height, show g.bmp.width = _ from congrArg Prod.fst sz,
          show g.bmp.height = _ from congrArg Prod.snd sz]
        exact hcon
      obtain ⟨t0, hC, hims⟩ := job_file hX hL henc hview hv hl (hcount c h1)
        (loadImages_size hsize h2) (hl ▸ hcus) hcon' h3 hf
      intro j p hp
      obtain ⟨g, r, bytes, k, a1, a2, a3, a4, a5, a6⟩ := hims j (by
        rw [hl]
        exact (List.getElem?_eq_some_iff.1 hp).1)
      obtain ⟨i, r1, r2, sz⟩ := asked j p g hp a1
      refine ⟨i, bytes, r1, a6, ?_⟩
      intro hi hsrc cs hlay x y hx hy ch n he
      obtain ⟨w1, w2, w3⟩ := R _ _ _ r1
      obtain ⟨f1, f2, f3⟩ := processLoaded_values Lm F RW FW hk hty w1 w2 ⟨w3.1, w3.2.1⟩ hsrc (w := size.1) (h := size.2)
        hi.symm r2
      have : r = g := represent_same hS f1 f2 a2
      subst this
      obtain ⟨x1, y1, pr, pg, pb, pa, hpx, fin⟩ := f3 x y (by rw [← hi]; exact hx) (by rw [← hi]; exact hy)
      rw [Prod.mk.eta] at x1 y1 hpx
      have hwid : (asFloats r).width = (imageSize c size 0).1 := congrArg Prod.fst sz
      have hhei : (asFloats r).height = (imageSize c size 0).2 := congrArg Prod.snd sz
      have hof : ∀ ch : Chan, ch.of ((asFloats r).px (place (jobMoves c) (size, (x, y))).2.1
          (place (jobMoves c) (size, (x, y))).2.2) = (Chan.pick pr pg pb pa ch).toBits := by
        intro ch
        simp only [asFloats, hpx]
        cases ch <;> rfl
      have hst : ∀ e ∈ cs, Storable c.type e.2 (e.1.of ((asFloats r).px (place (jobMoves c) (size, (x, y))).2.1
          (place (jobMoves c) (size, (x, y))).2.2)) := by
        intro e _
        rw [hof]
        exact ((fin e.1).bits e.2).2
      have hty2 : c.type ≠ .UFloat ∧ c.type ≠ .Float := by
        simp only [List.mem_cons, List.not_mem_nil, or_false] at hty
        rcases hty with h | h | h <;> rw [h] <;> simp
      have field := a3.field hC hlay (by rw [hwid, hhei]; exact hcon.fits) hty2.1 (fun h => absurd h hty2.2) x1 y1 hst he
      have stored := stored_all a4 hlay he (hst _ he).2.1
      have width := List.all_eq_true.1 (layout_widths a4 hlay) _ he
      simp only [Bool.and_eq_true, Bool.or_eq_true, decide_eq_true_eq, bne_iff_ne] at width
      have n16 : c.type = .UNorm → n ≤ 16 := fun h => by
        rcases width.1.1.2 with h' | h'
        · exact absurd h h'
        · exact h'
      rw [hwid] at field
      dsimp only at stored
      rw [hof] at stored
      refine ⟨_, (field _).2 rfl, ?_, ?_⟩
      · intro m v hm hc
        rw [hof]
        rcases sample_cases hsrc (w1 (i.bmp.height - y - 1) x (by omega) hx) ch with ⟨m', v', q1, q2, q3, q4, q5⟩ | ⟨-, q, -⟩
        · rw [hm] at q1
          cases q1
          exact (fin ch).holds hty width.1.1.1 n16 stored hm q3 q4 q5 hc
        · rw [hm] at q
          cases q
      · intro hu ha ho
        rw [hof]
        subst ha
        rw [hu] at stored ⊢
        have := fin .A
        rw [hu] at this
        exact this.opaque ho width.1.1.1 (n16 hu) stored

namespace Toy

/-- The float for a channel of a pixel of integers. -/
def channel (f : IFormat) (p : Px Dbl) (ch : Chan) : Dbl :=
  match Spec.sample f p ch with
  | some (m, v) => Dbl.single (.fin (v / m))
  | none => .fin 1

/-- The FreeImage of the examples, with conversions of integers to floats. -/
def converts : FreeImage Dbl :=
  { fi (Arith.ieee libm) true with
    convert := fun f b g => if f ∈ sources ∧ g = .RGBAF then
      some ⟨b.width, b.height, fun y x => .nums [channel f (b.px y x) .R, channel f (b.px y x) .G,
        channel f (b.px y x) .B, channel f (b.px y x) .A]⟩ else none }

theorem channel_single (f : IFormat) (p : Px Dbl) (ch : Chan) : Dbl.single (channel f p ch) = channel f p ch := by
  unfold channel
  split
  · exact (lawful_ieee libm).single (.fin _)
  · decide +kernel

theorem converts_lawful : LawfulFI (Arith.ieee libm) converts := by
  have h := fi_ieee libm true
  refine { h with convert := ?_ }
  intro f b g b' e
  simp only [converts] at e
  split at e
  · rename_i hc
    cases e
    refine ⟨rfl, rfl, ?_⟩
    rw [hc.2]
    intro y x _ _
    exact ⟨channel_single _ _ _, channel_single _ _ _, channel_single _ _ _, channel_single _ _ _⟩
  · cases e

theorem single_near {m : ℕ} {v : ℤ} (h0 : 0 ≤ v) (h1 : v ≤ m) (hm : m ∈ [31, 63, 255, 65535]) :
    Near (Dbl.single (.fin (v / m))) (m, v) := by
  have mpos : 0 < m := by
    simp only [List.mem_cons, List.not_mem_nil, or_false] at hm
    omega
  have mq : (0 : ℚ) < m := by exact_mod_cast mpos
  have v0 : (0 : ℚ) ≤ v / m := div_nonneg (by exact_mod_cast h0) mq.le
  have v1 : (v : ℚ) / m ≤ 1 := by
    rw [div_le_one mq]
    exact_mod_cast h1
  have a1 : |(v : ℚ) / m| ≤ 1 := by
    rw [abs_of_nonneg v0]
    exact v1
  refine ⟨rne (v / m), ?_, ?_, ?_, ?_⟩
  · show F32.round (v / m) = _
    exact round_fin (a1.trans (one_le_zpow₀ (by norm_num) (by norm_num)))
  · rw [← rne_zero]
    exact rne_mono v0
  · have h1 : Rep 1 := by exact_mod_cast rep_int (n := 1) (by norm_num)
    have := rne_mono v1
    rwa [rne_exact h1] at this
  · have e := rne_abs (q := (v : ℚ) / m) (e := -1) (by norm_num) (by simpa using a1)
    refine e.trans ?_
    unfold closeness
    split <;> norm_num

theorem converts_well : ReadsWell (Arith.ieee libm) converts := by
  intro f b b' hf hb e y x hy hx
  simp only [converts] at e
  rw [if_pos ⟨hf, trivial⟩] at e
  cases e
  have near (ch : Chan) (mv) (hs : Spec.sample f (b.px y x) ch = some mv) : Near (channel f (b.px y x) ch) mv := by
    rcases sample_cases hf (hb y x hy hx) ch with ⟨m, v, q1, -, q3, q4, q5⟩ | ⟨-, q, -⟩
    · rw [hs] at q1
      cases q1
      unfold channel
      rw [hs]
      exact single_near q3 q4 q5
    · rw [hs] at q
      cases q
  refine ⟨_, _, _, _, rfl, ?_, ?_⟩
  · intro ch mv hs
    cases ch <;> exact near _ _ hs
  · intro ho
    rcases sample_cases hf (hb y x hy hx) .A with ⟨m, v, q1, -⟩ | ⟨-, q, -⟩
    · have : (m, v) = (255, 255) ∨ (m, v) = (65535, 65535) := by
        simp only [opaqueFormats, List.mem_cons, List.not_mem_nil, or_false] at ho
        have ok := hb y x hy hx
        unfold PxOk at ok
        rcases ho with rfl | rfl | rfl | rfl | rfl | rfl <;> simp only [Spec.sample] at q1 <;> split at ok <;>
          simp_all [integers]
      unfold channel
      rw [q1]
      rcases this with h | h <;> cases h <;> decide +kernel
    · unfold channel
      rw [q]

/-- A library of images for textures. -/
def imageLib : ImageLib (Image Dbl) where
  width i := i.bmp.width
  height i := i.bmp.height
  isRGBAF i := decide (i.format = .RGBAF)
  colorSpace i := i.colorSpace
  toRGBAF i := some { i with format := .RGBAF }
  changeColorSpace i cs := { i with colorSpace := cs }
  resize i w h _ := some { i with bmp := { i.bmp with width := w, height := h } }
  mip3d _ w h _ _ cs _ := ⟨.RGBAF, cs, ⟨w, h, fun _ _ => .nums [.fin 0, .fin 0, .fin 0, .fin 0]⟩⟩

theorem imageLib_lawful : Lawful imageLib := by
  refine ⟨?_, ?_, ?_, ?_, ?_⟩
  · rintro g g' ⟨⟩
    exact ⟨rfl, rfl, rfl⟩
  · intro g cs
    exact ⟨rfl, rfl, rfl, rfl⟩
  · rintro g w h f g' ⟨⟩
    exact ⟨rfl, rfl, rfl⟩
  · intros
    rfl
  · intros
    exact ⟨rfl, rfl, rfl⟩

/-- Files: `a` is the image of 3 x 2 pixels with different colours, `b` an opaque image of 16-bit colours. -/
def readAB (p : Str) (cs : ColorSpace) : Img? Dbl :=
  if p = cstr "a" then some { rgba with colorSpace := cs }
  else if p = cstr "b" then some ⟨.RGB565, cs, ⟨2, 1, fun _ x => .ints [0xFFFF - x]⟩⟩
  else none

theorem readAB_ok : LoadsWell (Arith.ieee libm) readAB := by
  intro p cs i h
  unfold readAB at h
  split at h
  · cases h
    exact ⟨rgba_ok _, rfl, by norm_num [rgba], by norm_num [rgba], by norm_num [rgba], by norm_num [rgba],
      by norm_num [rgba]⟩
  · split at h
    · cases h
      refine ⟨?_, rfl, by norm_num, by norm_num, by norm_num, by norm_num, by norm_num⟩
      intro y x hy hx
      simp only at hx ⊢
      simp only [PxOk, Upto]
      omega
    · cases h

/-- The tool with these. -/
def imageTool : ToolEnv (Image Dbl) Dbl Files where
  cmd := ⟨real.feat, fun _ => none, fun _ => none, .fin 1, 1000⟩
  world := ⟨imageLib, real.feat, 1, fun k a g => encodeImage ext k a (asFloats g)⟩
  disk := disk Device.perfect
  load := loadAndProcess (Arith.ieee libm) converts readAB

end Toy

/-- The conditions of the theorem on FreeImage, the files, the library and the file system can be met. -/
example : LawfulFI (Arith.ieee Toy.libm) Toy.converts ∧ FlipsWork Toy.converts ∧
    ReadsWell (Arith.ieee Toy.libm) Toy.converts ∧ LoadsWell (Arith.ieee Toy.libm) Toy.readAB ∧
    Toy.imageTool.load = loadAndProcess (Arith.ieee Toy.libm) Toy.converts Toy.readAB ∧
    Lawful Toy.imageTool.world.lib ∧ SameImages Toy.imageTool.world.lib ∧ CodecSizes Toy.ext ∧
    (Toy.imageTool.world.enc = fun k a g => encodeImage Toy.ext k a (asFloats g)) ∧
    (∀ s bytes, Toy.imageTool.disk.close s bytes = bytes.length) :=
  ⟨Toy.converts_lawful, fun _ => ⟨rfl, rfl⟩, Toy.converts_well, Toy.readAB_ok, rfl, Toy.imageLib_lawful,
    ⟨fun _ => rfl, fun _ => rfl, fun _ => rfl, fun _ => rfl, fun _ => rfl⟩, Toy.ext_sizes, rfl, fun _ _ => rfl⟩

/-- The image `a` in a file, turned by a quarter: the pixels of 8 bits per channel are there. -/
example : inFile .PVR (Toy.written (toolMain Toy.imageTool [cstr "cuttlefish", cstr "-i", cstr "a", cstr "--rotate",
    cstr "90", cstr "-f", cstr "R8G8B8A8", cstr "-o", cstr "a.pvr"] ⟨[[]], []⟩)) 0 0 0 0 = some
      [0, 10, 0, 255, 100, 10, 0, 255, 1, 10, 20, 255, 101, 10, 20, 255, 2, 10, 40, 255, 102, 10, 40, 255] := by
  decide +kernel

/-- The job of this example keeps colours. -/
example : ∃ c, parseCommandLine Toy.imageTool.cmd [cstr "cuttlefish", cstr "-i", cstr "a", cstr "--rotate", cstr "90",
    cstr "-f", cstr "R8G8B8A8", cstr "-o", cstr "a.pvr"] = .ok (some (some c)) ∧ KeepsValues c ∧ c.type = .UNorm := by
  have h : (match parseCommandLine Toy.imageTool.cmd [cstr "cuttlefish", cstr "-i", cstr "a", cstr "--rotate",
      cstr "90", cstr "-f", cstr "R8G8B8A8", cstr "-o", cstr "a.pvr"] with
      | .ok (some (some c)) => decide (c.imageColorSpace = c.textureColorSpace) && !c.grayscale && !c.normalMap &&
          !c.swizzle && !c.preMultiply && decide (c.type = .UNorm)
      | _ => false) = true := by decide +kernel
  split at h
  · rename_i c hc
    simp only [Bool.and_eq_true, decide_eq_true_eq, Bool.not_eq_true'] at h
    obtain ⟨⟨⟨⟨⟨h1, h2⟩, h3⟩, h4⟩, h5⟩, h6⟩ := h
    exact ⟨c, hc, ⟨h1, h2, h3, h4, h5⟩, h6⟩
  · cases h

/-- The full claim is false: an opaque image of 16-bit colours is transparent in an integer texture, alpha is 0 there
(for the other opaque formats it is the largest value). -/
theorem C52_fails_alpha : ∃ bytes,
    inFile .PVR (Toy.written (toolMain Toy.imageTool [cstr "cuttlefish", cstr "-i", cstr "b", cstr "-t", cstr "uint",
      cstr "-f", cstr "R8G8B8A8", cstr "-o", cstr "a.pvr"] ⟨[[]], []⟩)) 0 0 0 0 = some bytes ∧
    ∀ x < 2, FieldIs .R8G8B8A8 bytes 2 x 0 .A 0 := by
  refine ⟨[31, 63, 31, 0, 31, 63, 30, 0], by decide +kernel, ?_⟩
  unfold FieldIs
  decide +kernel

end Cuttlefish
