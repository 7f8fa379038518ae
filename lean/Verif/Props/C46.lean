import Verif.Proofs.Codes
import Verif.Props.C20
import Verif.Props.C21
import Verif.Props.C22
import Verif.Props.C42
/-
C46: the format codes in saved files describe the data.
-/
namespace Cuttlefish
open Spec
open scoped List
variable {Img : Type}

/-- A reader that follows the format codes of a KTX file finds every channel of every texel in the
bits the converter put it in, and knows its type and colour space; for compressed formats the code
names the format.

Partial: not for `B8G8R8A8` and `A8B8G8R8`, whose codes are
wrong (`C46_fails_ktx_bgra`, `C46_fails_ktx_abgr`), and the data type of signed `R8G8` is unsigned
(`C46_fails_ktx_signed`). Whether the pixel format is an integer format is left to the internal
format: the code always uses the plain pixel formats. The limits on the sizes are those of C20. -/
theorem C46_ktx_partial (X : Ext) (hX : CodecSizes X) (view : Img → FImg) (W : World Img)
    (t t' : Tex Img) (f : Format) (ty : TType) (hC : Conversion X view W t t' f ty)
    (hv : isFormatValidFile W.feat f ty .KTX = true) (w h d : Nat)
    (hw : t'.widthAt 0 = .ok w) (hh : t'.heightAt 0 = .ok h) (hd : t'.depthAt 0 = .ok d)
    (hp : Pow2For f w h) (hf : Fits f w h) (h1d : t'.dimension = .Dim1D → h = 1)
    (hk : d * (if t'.isArray then t'.faceCount else 1) * ktxImageBytes f w h < 2 ^ 32)
    (hne : f ≠ .B8G8R8A8 ∧ f ≠ .A8B8G8R8) :
    ∃ bytes file, FullFile t' .KTX bytes ∧ parseKtx bytes = some file ∧
      (∀ l, layout f = some l →
        glInternal file.glInternalFormat = some (ty, t'.colorSpace) ∧
        (f ≠ .R8G8 ∨ (ty ≠ .SNorm ∧ ty ≠ .Int) → ty ∈ glTypes file.glType) ∧
        ∃ ps, glPositions file.glType file.glFormat = some ps ∧
          ∀ texel, extract ps texel ~ texelFields l texel) ∧
      (layout f = none →
        ∃ ts, glCompressed file.glInternalFormat = some (f, ts, t'.colorSpace) ∧ ty ∈ ts) := by
  obtain ⟨w', h', d', L, hS⟩ := hC.shaped
  have hw' := hS.width 0 hS.levelsPos
  have hh' := hS.height 0 hS.levelsPos
  have hd' := hS.depth 0 hS.levelsPos
  rw [hw] at hw'; rw [hh] at hh'; rw [hd] at hd'
  simp only [Res.ok.injEq, extent] at hw' hh' hd'
  subst hw' hh' hd'
  have hvk : isValidForKtx f ty = true := by
    have h0 := hv
    simp only [isFormatValidFile, hC.valid] at h0
    simpa using h0
  have hZ := hC.sized hX hp hS hf
  obtain ⟨info, fm, hi, hfm, hfull⟩ := saved_ktx hS hZ hk hC.valid hvk
  obtain ⟨p1, p2, -, p3, -⟩ := block_pos hC.valid
  have hcodes := ktx_codes hC.valid hi
  refine ⟨_, _, hfull, reads_all (ktx_reads hS hZ ⟨p1, p2, p3.1⟩ hk info fm hfm hcodes h1d), ?_, ?_⟩
  · intro l hl
    obtain ⟨⟨fm', ps, h1, h2, h3⟩, h4⟩ := ktx_texel hC.valid hC.space hi hl hne
    obtain rfl : fm' = fm := by rw [hfm] at h1; exact (Option.some.inj h1).symm
    exact ⟨h4, ktx_type hC.valid hC.space hi hl, ps, h2, fun texel => (extract_perm h3 texel).trans (extract_positions l texel)⟩
  · exact fun hl => ktx_block hC.valid hC.space hi hl

/-- A reader that follows the DXGI format of a DDS file finds every channel of every texel in the
bits the converter put it in, and knows its type and colour space; for compressed formats the code
names the format (up to the two variants of BC1). The alpha mode tells how alpha is meant.

Partial: not for `R4G4`, which is coded as a format with intensity and alpha
(`C46_fails_dds_r4g4`), and the alpha mode not for `A4R4G4B4`, which is marked as opaque
(`C46_fails_dds_alpha`); the limits on the sizes are those of C21. -/
theorem C46_dds_partial (X : Ext) (hX : CodecSizes X) (view : Img → FImg) (W : World Img)
    (t t' : Tex Img) (f : Format) (ty : TType) (hC : Conversion X view W t t' f ty)
    (hv : isFormatValidFile W.feat f ty .DDS = true) (w h d : Nat)
    (hw : t'.widthAt 0 = .ok w) (hh : t'.heightAt 0 = .ok h) (hd : t'.depthAt 0 = .ok d)
    (hf : Fits f w h) (h1d : t'.dimension = .Dim1D → h = 1) (hne : f ≠ .R4G4) :
    ∃ bytes file, FullFile t' .DDS bytes ∧ parseDds bytes = some file ∧
      (∀ l, layout f = some l → ∃ l', dxgiTexel file.dxgiFormat = some (l', ty, t'.colorSpace) ∧
        ∀ texel, extract (lowFirst l' 0) texel ~ texelFields l texel) ∧
      (layout f = none →
        ∃ fs, dxgiCompressed file.dxgiFormat = some (fs, ty, t'.colorSpace) ∧ f ∈ fs) ∧
      (f ≠ .A4R4G4B4 →
        (file.alphaMode = 1 ↔ StoresAlpha f ∧ t'.alphaType = .Standard) ∧
        (file.alphaMode = 2 ↔ StoresAlpha f ∧ t'.alphaType = .PreMultiplied) ∧
        (file.alphaMode = 3 ↔ ¬ StoresAlpha f ∨ t'.alphaType = .None) ∧
        (file.alphaMode = 4 ↔ StoresAlpha f ∧ t'.alphaType = .Encoded)) := by
  obtain ⟨w', h', d', L, hS⟩ := hC.shaped
  have hw' := hS.width 0 hS.levelsPos
  have hh' := hS.height 0 hS.levelsPos
  have hd' := hS.depth 0 hS.levelsPos
  rw [hw] at hw'; rw [hh] at hh'; rw [hd] at hd'
  simp only [Res.ok.injEq, extent] at hw' hh' hd'
  subst hw' hh' hd'
  have hvd : isValidForDds f ty = true := by
    have h0 := hv
    simp only [isFormatValidFile, hC.valid] at h0
    simpa using h0
  obtain ⟨pitch, hpitch, hfull⟩ := saved_dds hS hvd
  have hu := (dds_valid f ty t'.colorSpace).2 hvd
  obtain ⟨hb, hlt, hp⟩ := dds_codes hC.valid hu
  have hZ := hC.sized hX (pow2For_other (isPvrtc1_false hp) _ _) hS hf
  obtain ⟨c1, c2⟩ := dds_code hC.valid hC.space hu hne
  refine ⟨_, _, hfull, reads_all (dds_reads hS hZ _ pitch hlt hpitch hb (isPvrtc1_false hp) h1d), ?_, c2, ?_⟩
  · intro l hl
    obtain ⟨l', h1, h2⟩ := c1 l hl
    exact ⟨l', h1, fun texel => (extract_perm h2 texel).trans (extract_positions l texel)⟩
  · intro h4
    have ha := C42_hasAlpha_partial f h4
    simp only [ddsAlphaMode, ← ha]
    by_cases hA : hasAlpha f = true <;> cases t'.alphaType <;> simp [hA]

/-- A reader that follows the pixel format and the channel type of a PVR file finds every channel of
every texel where the converter put it, and knows its type; compressed formats (and the format with
the shared exponent) have codes of their own. BC1 has metadata for its two variants, see C22.

Partial: the limits on the sizes are those of C22. -/
theorem C46_pvr_partial (X : Ext) (hX : CodecSizes X) (view : Img → FImg) (W : World Img)
    (t t' : Tex Img) (f : Format) (ty : TType) (hC : Conversion X view W t t' f ty)
    (hv : isFormatValidFile W.feat f ty .PVR = true) (w h d : Nat)
    (hw : t'.widthAt 0 = .ok w) (hh : t'.heightAt 0 = .ok h) (hd : t'.depthAt 0 = .ok d)
    (hp : Pow2For f w h) (hf : Fits f w h) :
    ∃ bytes file, FullFile t' .PVR bytes ∧ parsePvr bytes = some file ∧
      pvrType file.channelType = some ty ∧
      (∀ l, layout f = some l → f ≠ .E5B9G9R9_UFloat → pvrChannels file.pixelFormat = l) ∧
      (layout f = none ∨ f = .E5B9G9R9_UFloat → f ∈ pvrCompressed file.pixelFormat) := by
  obtain ⟨w', h', d', L, hS⟩ := hC.shaped
  have hw' := hS.width 0 hS.levelsPos
  have hh' := hS.height 0 hS.levelsPos
  have hd' := hS.depth 0 hS.levelsPos
  rw [hw] at hw'; rw [hh] at hh'; rw [hd] at hd'
  simp only [Res.ok.injEq, extent] at hw' hh' hd'
  subst hw' hh' hd'
  have hvp : isValidForPvr f ty = true := by
    have h0 := hv
    simp only [isFormatValidFile, hC.valid] at h0
    simpa using h0
  obtain ⟨pf, hpf, hfull⟩ := saved_pvr hS hvp
  have hZ := hC.sized hX hp hS hf
  obtain ⟨hb, hq, hlt⟩ := pvr_codes hpf
  exact ⟨_, _, hfull, reads_all (pvr_reads hS hZ pf hlt hb hq), pvr_code hC.valid hpf⟩

/-- Reads a single field of the first texel of the first image as the codes of a KTX file say. -/
def Spec.ktxField (bytes : List UInt8) (n : Nat) (c : Chan) : Option Nat := do
  let file ← parseKtx bytes
  let ps ← glPositions file.glType file.glFormat
  let image ← file.image 0 0 0 0
  (extract ps (image.take n)).lookup c

theorem ktx_witness (f : Format) (c : Chan) (good bad : Nat) (l : List (Chan × Nat))
    (h : Toy.checkTex (Toy.fill .Dim2D 2 2 0 1 .Linear 7) f .UNorm (fun t => decide (
        (match t.data (some .PosX) 0 0 with
          | .ok (some data) => decide ((texelFields l (data.take 4)).lookup c = some good)
          | _ => false) = true ∧
        Toy.savedAs .KTX (fun b => decide (ktxField b 4 c = some bad)) t = true)) = true) :
    ∃ t t', Conversion Toy.ext Toy.view Toy.real t t' f .UNorm ∧
      (∃ data, t'.data (some .PosX) 0 0 = .ok (some data) ∧
        (texelFields l (data.take 4)).lookup c = some good) ∧
      ∃ bytes, FullFile t' .KTX bytes ∧ ktxField bytes 4 c = some bad := by
  obtain ⟨t, t', h1, h2⟩ := Toy.sampleTex
    (Toy.fill_safe _ _ _ _ _ _ _ (by norm_num) (by norm_num) (by norm_num)) h
  simp only [decide_eq_true_eq] at h2
  obtain ⟨a, b⟩ := h2
  obtain ⟨bytes, b1, b2⟩ := Toy.savedAs_full b
  refine ⟨t, t', h1, ?_, bytes, b1, by simpa using b2⟩
  split at a
  · rename_i data he
    exact ⟨data, he, by simpa using a⟩
  · cases a

/-- The full claim is false for `B8G8R8A8`: opaque texels are read as transparent. -/
theorem C46_fails_ktx_bgra : ∃ t t', Conversion Toy.ext Toy.view Toy.real t t' .B8G8R8A8 .UNorm ∧
    (∃ data, t'.data (some .PosX) 0 0 = .ok (some data) ∧
      (texelFields [(.B, 8), (.G, 8), (.R, 8), (.A, 8)] (data.take 4)).lookup .A = some 255) ∧
    ∃ bytes, FullFile t' .KTX bytes ∧ ktxField bytes 4 .A = some 0 :=
  ktx_witness .B8G8R8A8 .A 255 0 _ (by decide +kernel)

/-- The same for `A8B8G8R8`. -/
theorem C46_fails_ktx_abgr : ∃ t t', Conversion Toy.ext Toy.view Toy.real t t' .A8B8G8R8 .UNorm ∧
    (∃ data, t'.data (some .PosX) 0 0 = .ok (some data) ∧
      (texelFields [(.A, 8), (.B, 8), (.G, 8), (.R, 8)] (data.take 4)).lookup .A = some 255) ∧
    ∃ bytes, FullFile t' .KTX bytes ∧ ktxField bytes 4 .A = some 0 :=
  ktx_witness .A8B8G8R8 .A 255 0 _ (by decide +kernel)

/-- The full claim is false for signed values in `R8G8`: the data type of the file is 0x1401,
`GL_UNSIGNED_BYTE`. -/
theorem C46_fails_ktx_signed : ∃ t t', Conversion Toy.ext Toy.view Toy.real t t' .R8G8 .SNorm ∧
    ∃ bytes file, FullFile t' .KTX bytes ∧ parseKtx bytes = some file ∧ file.glType = 0x1401 := by
  obtain ⟨t, t', h1, h2⟩ := Toy.sampleTex (ops := Toy.fill .Dim2D 2 2 0 1 .Linear 7) (f := .R8G8)
    (ty := .SNorm) (p := Toy.savedAs .KTX (fun b => decide ((parseKtx b).map (·.glType) = some 0x1401)))
    (Toy.fill_safe _ _ _ _ _ _ _ (by norm_num) (by norm_num) (by norm_num)) (by decide +kernel)
  obtain ⟨bytes, b1, b2⟩ := Toy.savedAs_full h2
  simp only [decide_eq_true_eq, Option.map_eq_some_iff] at b2
  obtain ⟨file, b3, b4⟩ := b2
  exact ⟨t, t', h1, bytes, file, b1, b3, b4⟩

/-- The full claim is false for `R4G4` in DDS files: the code is 112, `DXGI_FORMAT_IA44`. -/
theorem C46_fails_dds_r4g4 : ∃ t t', Conversion Toy.ext Toy.view Toy.real t t' .R4G4 .UNorm ∧
    ∃ bytes file, FullFile t' .DDS bytes ∧ parseDds bytes = some file ∧ file.dxgiFormat = 112 ∧
      dxgiTexel file.dxgiFormat = none := by
  obtain ⟨t, t', h1, h2⟩ := Toy.sampleTex (ops := Toy.fill .Dim2D 2 2 0 1 .Linear 7) (f := .R4G4)
    (ty := .UNorm) (p := Toy.savedAs .DDS (fun b => decide ((parseDds b).map (·.dxgiFormat) = some 112)))
    (Toy.fill_safe _ _ _ _ _ _ _ (by norm_num) (by norm_num) (by norm_num)) (by decide +kernel)
  obtain ⟨bytes, b1, b2⟩ := Toy.savedAs_full h2
  simp only [decide_eq_true_eq, Option.map_eq_some_iff] at b2
  obtain ⟨file, b3, b4⟩ := b2
  exact ⟨t, t', h1, bytes, file, b1, b3, b4, by rw [b4]; decide⟩

/-- The full claim is false for the alpha mode of `A4R4G4B4` in DDS files: a texture with standard
alpha is marked as opaque. -/
theorem C46_fails_dds_alpha : StoresAlpha .A4R4G4B4 ∧
    ∃ t t', Conversion Toy.ext Toy.view Toy.real t t' .A4R4G4B4 .UNorm ∧ t'.alphaType = .Standard ∧
    ∃ bytes file, FullFile t' .DDS bytes ∧ parseDds bytes = some file ∧ file.alphaMode = 3 := by
  refine ⟨C42_fails_A4R4G4B4.1, ?_⟩
  obtain ⟨t, t', h1, h2⟩ := Toy.sampleTex (ops := Toy.fill .Dim2D 2 2 0 1 .Linear 7) (f := .A4R4G4B4)
    (ty := .UNorm) (p := fun t => t.alphaType = .Standard ∧
      Toy.savedAs .DDS (fun b => decide ((parseDds b).map (·.alphaMode) = some 3)) t)
    (Toy.fill_safe _ _ _ _ _ _ _ (by norm_num) (by norm_num) (by norm_num)) (by decide +kernel)
  simp only [decide_eq_true_eq] at h2
  obtain ⟨bytes, b1, b2⟩ := Toy.savedAs_full h2.2
  simp only [decide_eq_true_eq, Option.map_eq_some_iff] at b2
  obtain ⟨file, b3, b4⟩ := b2
  exact ⟨t, t', h1, h2.1, bytes, file, b1, b3, b4⟩

/-- A 3x2 texture with packed texels meets the hypotheses of all three theorems. -/
example : ∃ t t', Conversion Toy.ext Toy.view Toy.real t t' .R5G6B5 .UNorm ∧
    t'.dimension = .Dim2D ∧ t'.isArray = false ∧
    t'.widthAt 0 = .ok 3 ∧ t'.heightAt 0 = .ok 2 ∧ t'.depthAt 0 = .ok 1 ∧ Fits .R5G6B5 3 2 ∧
    1 * 1 * ktxImageBytes .R5G6B5 3 2 < 2 ^ 32 ∧
    isFormatValidFile Toy.real.feat .R5G6B5 .UNorm .KTX = true ∧
    isFormatValidFile Toy.real.feat .R5G6B5 .UNorm .PVR = true := by
  obtain ⟨t, t', h1, h2⟩ := Toy.sampleTex (ops := Toy.fill .Dim2D 3 2 0 1 .Linear 7) (f := .R5G6B5)
    (ty := .UNorm) (p := fun t => t.dimension = .Dim2D ∧ t.isArray = false ∧
      t.widthAt 0 = .ok 3 ∧ t.heightAt 0 = .ok 2 ∧ t.depthAt 0 = .ok 1)
    (Toy.fill_safe _ _ _ _ _ _ _ (by norm_num) (by norm_num) (by norm_num)) (by decide +kernel)
  simp only [decide_eq_true_eq] at h2
  obtain ⟨a, b, c, e, g⟩ := h2
  refine ⟨t, t', h1, a, b, c, e, g, ⟨by norm_num, by norm_num, ?_⟩, by decide, by decide, by decide⟩
  simp only [layout]; decide

end Cuttlefish
