import Verif.Proofs.ToolTex
import Verif.Proofs.Sample
/-
C43: the tool reports success only if the texture was written.
-/
namespace Cuttlefish
open Spec
variable {Img H σ : Type}

/-- Every run of the tool that is not undefined ends in one of the ways of `Ending`: for all command
lines, all results of loading images, all encoders and all file systems in which closing a file does not
lose bytes.  (`C23_fails_file` shows the effect of losing bytes.)

Partial: not if bytes are lost when the file is closed, and nothing about undefined runs (`C43_fails_mixed`). -/
theorem C43_outcome_partial (E : ToolEnv Img H σ) (argv : List Str) (s s' : σ) (code : Option ℕ)
    (hclose : ∀ s bytes, E.disk.close s bytes = bytes.length)
    (hsize : LoadsSmall E)
    (hcount : ∀ c, parseCommandLine E.cmd argv = .ok (some (some c)) → c.images.length < 2 ^ 32)
    (h : toolMain E argv s = .ok (code, s')) : Ending E argv s code s' := by
  unfold toolMain at h
  rw [Res.bind_eq_ok] at h
  obtain ⟨o, ho, h⟩ := h
  cases o with
  | none =>
    simp only [Res.ok.injEq, Prod.mk.injEq] at h
    obtain ⟨rfl, rfl⟩ := h
    exact .exception ho
  | some o =>
    cases o with
    | none =>
      simp only [Res.ok.injEq, Prod.mk.injEq] at h
      obtain ⟨rfl, rfl⟩ := h
      exact .usage ho
    | some c =>
      dsimp only at h
      rw [Res.bind_eq_ok] at h
      obtain ⟨l, hl, h⟩ := h
      cases l with
      | none =>
        simp only [Res.ok.injEq, Prod.mk.injEq] at h
        obtain ⟨rfl, rfl⟩ := h
        exact .notLoaded c ho hl
      | some l =>
        dsimp only at h
        rw [Res.bind_eq_ok] at h
        obtain ⟨r, hr, h⟩ := h
        simp only [Res.ok.injEq, Prod.mk.injEq] at h
        obtain ⟨rfl, rfl⟩ := h
        rcases save_texture hr (C33_job _ _ _ ho) (loadImages_length hl) (hcount c ho) (loadImages_size hsize hl) hclose with
          ⟨outs, t, h1, rfl⟩ | ⟨outs, t, out, h1, h2, h3⟩
        · exact .notConverted c l.1 l.2 outs t ho hl h1
        · have := Ending.written (E := E) (argv := argv) (s := s) c l.1 l.2 outs t out r.1 r.2 ho hl h1 h2 h3
          rw [apply_ite some] at this
          exact this

/-- Exit code 0: the output file holds the complete file of a texture with the requested format, type, alpha,
colour mask, dimension and colour space, the size of the first image, one layer per image, in which every image
was stored, and with the requested number of levels if no custom mip is an invalid image. -/
theorem C43_success (E : ToolEnv Img H σ) (argv : List Str) (s s' : σ)
    (hclose : ∀ s bytes, E.disk.close s bytes = bytes.length)
    (hsize : LoadsSmall E)
    (hcount : ∀ c, parseCommandLine E.cmd argv = .ok (some (some c)) → c.images.length < 2 ^ 32)
    (h : toolMain E argv s = .ok (some 0, s')) :
    ∃ c images custom outs t out full s1,
      parseCommandLine E.cmd argv = .ok (some (some c)) ∧
      loadImages E c = .ok (some (images, custom)) ∧
      run E.world none (jobOps E.world.lib c images custom) = .ok (outs, t) ∧
      c.output = some out ∧ FullFile t c.fileType full ∧ s' = E.disk.write s1 out full ∧
      (∀ j ≤ images.length, outs[j]? = some (.bool true)) ∧
      t.format = c.format ∧ t.type = c.type ∧ t.alphaType = c.alpha ∧ t.colorMask = c.colorMask ∧
      t.dimension = c.dimension ∧ t.colorSpace = c.textureColorSpace ∧
      t.widthAt 0 = .ok (E.world.lib.widthO images.head?.join) ∧
      t.heightAt 0 = .ok (E.world.lib.heightO images.head?.join) ∧
      t.depthAt 0 = .ok (max (layers c.imageType images.length) 1) ∧
      ((∀ e ∈ custom, e.2.usable = true) → t.mipLevelCount = min (max c.mipLevels 1)
        (maxMipmapLevels c.dimension (E.world.lib.widthO images.head?.join)
          (E.world.lib.heightO images.head?.join) (layers c.imageType images.length))) := by
  have ho := C43_outcome_partial E argv s s' (some 0) hclose hsize hcount h
  generalize hcode : some 0 = code at ho
  cases ho with
  | exception => simp at hcode
  | usage => simp at hcode
  | notLoaded => simp at hcode
  | notConverted => simp at hcode
  | written c images custom outs t out ok s'' h1 h2 h3 h4 h5 =>
    cases ok with
    | false => simp at hcode
    | true =>
      have hv := C33_job _ _ _ h1
      have hl := loadImages_length h2
      dsimp only at hl
      have hne : images ≠ [] := by
        intro he
        rw [he] at hl
        exact hv.images (List.length_eq_zero_iff.1 hl.symm)
      have hj := job_texture (by rw [hl]; exact hcount c h1) hne (loadImages_size hsize h2) (fun e => hl.trans (hv.one e))
        (fun e => hl.trans (hv.cube e)) (fun e => hl ▸ hv.cubes e) hv.kind h3
      have hfile : ∃ full s1, FullFile t c.fileType full ∧ s' = E.disk.write s1 out full := by
        have key : ∀ s0, Written E.disk t c.fileType out s0 true s' →
            ∃ full s1, FullFile t c.fileType full ∧ s' = E.disk.write s1 out full := by
          intro s0 hw
          cases hw with
          | complete full h1 h2 => exact ⟨full, s0, h2, rfl⟩
        cases h5 with
        | first hw => exact key s (by assumption)
        | again s1 s2 => exact key s2 (by assumption)
      obtain ⟨full, s1, hf, hs⟩ := hfile
      refine ⟨c, images, custom, _, t, out, full, s1, h1, h2, h3, h4, hf, hs, ?_, hj.2⟩
      intro j hjl
      have := hj.1 j hjl
      rw [List.getElem?_append_left (List.getElem?_eq_some_iff.1 this).1]
      exact this

/-- Nothing is written or created unless the texture was converted: on exit codes other than 0 and 3 the file
system is unchanged. -/
theorem C43_untouched (E : ToolEnv Img H σ) (argv : List Str) (s s' : σ) (code : Option ℕ)
    (h : toolMain E argv s = .ok (code, s')) (hc : code ≠ some 0 ∧ code ≠ some 3) : s' = s := by
  unfold toolMain at h
  rw [Res.bind_eq_ok] at h
  obtain ⟨o, ho, h⟩ := h
  rcases o with _ | _ | c
  · simp only [Res.ok.injEq, Prod.mk.injEq] at h
    exact h.2.symm
  · simp only [Res.ok.injEq, Prod.mk.injEq] at h
    exact h.2.symm
  · dsimp only at h
    rw [Res.bind_eq_ok] at h
    obtain ⟨l, hl, h⟩ := h
    cases l with
    | none =>
      simp only [Res.ok.injEq, Prod.mk.injEq] at h
      exact h.2.symm
    | some l =>
      dsimp only at h
      rw [Res.bind_eq_ok] at h
      obtain ⟨r, hr, h⟩ := h
      simp only [Res.ok.injEq, Prod.mk.injEq] at h
      obtain ⟨rfl, rfl⟩ := h
      split at hc <;> simp at hc

/-! ### A small file system and library -/

namespace Toy

/-- File systems with a few flat directories: the names of the directories and the contents of the files.  A
file can be opened if the part of its name before the last `/` is a directory. -/
structure Files where
  dirs : List Str
  files : List (Str × List UInt8)
  deriving DecidableEq

/-- The part of a path before the last separator. -/
def parent (p : Str) : Str := ((p.reverse.dropWhile (· ≠ 47)).drop 1).reverse

def disk (dev : Device) : Disk Files where
  opens s p := s.dirs.contains (parent p)
  dev _ := dev
  close _ b := b.length
  write s p b := { s with files := (p, b) :: s.files.filter (·.1 ≠ p) }
  mkdir s p := if s.dirs.contains p then (s, .exists_)
    else if s.dirs.contains (parent p) then ({ s with dirs := p :: s.dirs }, .created) else (s, .error)

/-- The tool in the small world: every name is an image of 4x4 pixels. -/
def tool (dev : Device) : ToolEnv Toy.Img Unit Files where
  cmd := ⟨real.feat, fun n => if n = cstr "l" then some (cstr "a\na\na\na") else none, fun _ => none, (), 1000⟩
  world := real
  disk := disk dev
  load := fun _ _ _ _ level => .ok (some (some ⟨4 / 2 ^ level, 4 / 2 ^ level, true, .Linear, [0x3F800000]⟩, 4, 4))

end Toy

/-- The library and the file system meet the conditions of the theorems, for all devices. -/
example (dev : Device) : (∀ s bytes, (Toy.tool dev).disk.close s bytes = bytes.length) ∧
    LoadsSmall (Toy.tool dev) := by
  refine ⟨fun _ _ => rfl, ?_⟩
  intro c p l g w' h' hl
  simp only [Toy.tool, Res.ok.injEq, Option.some.injEq, Prod.mk.injEq] at hl
  obtain ⟨rfl, -⟩ := hl
  have : 4 / 2 ^ l ≤ 4 := Nat.div_le_self _ _
  exact ⟨by show 4 / 2 ^ l < _; omega, by show 4 / 2 ^ l < _; omega⟩

/-- A run that first fails because the directory does not exist, creates it, and succeeds: the file has 52
bytes of header and 16 texels. -/
theorem sample_tool : toolMain (Toy.tool Device.perfect) [cstr "cuttlefish", cstr "-i", cstr "a", cstr "-f",
    cstr "R8", cstr "-o", cstr "d/a.pvr", cstr "--create-dir"] ⟨[[]], []⟩ =
    .ok (some 0, ⟨[cstr "d", []], [(cstr "d/a.pvr", [80, 86, 82, 3] ++ leBytes 4 0 ++ [114, 0, 0, 0, 8, 0, 0, 0] ++
      leBytes 4 0 ++ leBytes 4 0 ++ leBytes 4 4 ++ leBytes 4 4 ++ leBytes 4 1 ++ leBytes 4 1 ++ leBytes 4 1 ++
      leBytes 4 1 ++ leBytes 4 0 ++ List.replicate 16 255)]⟩) := by
  decide +kernel

/-- Without the option the missing directory is an error, and nothing is created. -/
example : toolMain (Toy.tool Device.perfect) [cstr "cuttlefish", cstr "-i", cstr "a", cstr "-f",
    cstr "R8", cstr "-o", cstr "d/a.pvr"] ⟨[[]], []⟩ = .ok (some 3, ⟨[[]], []⟩) := by
  decide +kernel

/-- A full disk is an error. -/
example : toolMain (Toy.tool (failAfter 4)) [cstr "cuttlefish", cstr "-i", cstr "a", cstr "-f",
    cstr "R8", cstr "-o", cstr "a.pvr"] ⟨[[]], []⟩ =
    .ok (some 3, ⟨[[]], [(cstr "a.pvr", [80, 86, 82, 3])]⟩) := by
  decide +kernel

/-- An array with mipmaps of which one is a custom mip. -/
example : ∃ s, toolMain (Toy.tool Device.perfect) [cstr "cuttlefish", cstr "-I", cstr "array", cstr "l",
    cstr "-f", cstr "R8", cstr "-o", cstr "a.ktx", cstr "-m", cstr "-M", cstr "1", cstr "3", cstr "x"]
    ⟨[[]], []⟩ = .ok (some 0, s) := by
  have h : (match toolMain (Toy.tool Device.perfect) [cstr "cuttlefish", cstr "-I", cstr "array", cstr "l",
    cstr "-f", cstr "R8", cstr "-o", cstr "a.ktx", cstr "-m", cstr "-M", cstr "1", cstr "3", cstr "x"]
    ⟨[[]], []⟩ with | .ok (c, _) => c | .ub => none) = some 0 := by decide +kernel
  split at h
  · rename_i c s hr
    subst h
    exact ⟨s, hr⟩
  · simp at h

/-- The tool is not always defined: custom mips with different replacement modes for two slices of a level pass
the checks, `generateMipmaps` refuses them and leaves the levels empty, its result is ignored, the conversion
succeeds, and saving reads surfaces that do not exist. -/
theorem C43_fails_mixed : toolMain (Toy.tool Device.perfect) [cstr "cuttlefish", cstr "-I", cstr "array",
    cstr "l", cstr "-d", cstr "3", cstr "-f", cstr "R8", cstr "-o", cstr "a.pvr", cstr "-m",
    cstr "-M", cstr "1", cstr "0", cstr "once", cstr "x", cstr "-M", cstr "1", cstr "1", cstr "continue",
    cstr "x"] ⟨[[]], []⟩ = .ub := by
  decide +kernel

/-- With the same mode for both slices it is defined. -/
example : toolMain (Toy.tool Device.perfect) [cstr "cuttlefish", cstr "-I", cstr "array",
    cstr "l", cstr "-d", cstr "3", cstr "-f", cstr "R8", cstr "-o", cstr "a.pvr", cstr "-m",
    cstr "-M", cstr "1", cstr "0", cstr "once", cstr "x", cstr "-M", cstr "1", cstr "1", cstr "once",
    cstr "x"] ⟨[[]], []⟩ ≠ .ub := by
  decide +kernel

end Cuttlefish
