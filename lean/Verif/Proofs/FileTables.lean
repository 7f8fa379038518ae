import Verif.Model.Save
import Verif.Spec.Ktx
import Verif.Spec.Dds
import Verif.Spec.Pvr
import Verif.Spec.Surface
import Mathlib.Tactic.Common
/-
The format codes of the file formats agree with the block sizes of the formats: whole tables.
-/
namespace Cuttlefish
open Spec

theorem Format.mem_all (f : Format) : f ∈ Format.all := by cases f <;> decide
theorem TType.mem_all (t : TType) : t ∈ TType.all := by cases t <;> decide

/-- Every optional encoder is available. -/
def Features.full : Features := ⟨true, true, true, true⟩

theorem valid_full {c : Features} {f : Format} {ty : TType} (h : isFormatValid c f ty = true) :
    isFormatValid Features.full f ty = true := by
  have key : ∀ a ∈ [false, true], ∀ b ∈ [false, true], ∀ d ∈ [false, true], ∀ e ∈ [false, true],
      ∀ f ∈ Format.all, ∀ ty ∈ TType.all, isFormatValid ⟨a, b, d, e⟩ f ty = true →
        isFormatValid Features.full f ty = true := by decide +kernel
  obtain ⟨a, b, d, e⟩ := c
  exact key a (by cases a <;> simp) b (by cases b <;> simp) d (by cases d <;> simp)
    e (by cases e <;> simp) f f.mem_all ty ty.mem_all h

/-- What a KTX reader needs from the format codes. -/
def ktxCodesOk (f : Format) (info : KtxInfo) : Bool :=
  match info.format with
  | none => false
  | some fm =>
    (if blockWidth f = 1 then
      info.type ≠ 0 && glTexelBytes info.type fm == some (blockSize f)
    else info.type == 0 && glBlock info.internalFormat == some (blockWidth f, blockHeight f, blockSize f) &&
      glLeast info.internalFormat == leastBlocks f) &&
    info.type < 2 ^ 32 && info.typeSize < 2 ^ 32 && fm < 2 ^ 32 && info.internalFormat < 2 ^ 32 &&
    info.baseInternalFormat < 2 ^ 32

theorem ktx_codes {c : Features} {f : Format} {ty : TType} {cs : ColorSpace} {info : KtxInfo}
    (hv : isFormatValid c f ty = true) (h : ktxInfo f ty cs = some info) :
    ktxCodesOk f info = true := by
  have key : ∀ f ∈ Format.all, ∀ ty ∈ TType.all, ∀ cs ∈ [ColorSpace.Linear, ColorSpace.sRGB],
      isFormatValid Features.full f ty = true →
      ∀ info ∈ ktxInfo f ty cs, ktxCodesOk f info = true := by decide +kernel
  exact key f f.mem_all ty ty.mem_all cs (by cases cs <;> simp) (valid_full hv) info h

/-- The reader finds out that a format is compressed from the type being zero, also for PVRTC. -/
theorem ktx_format {c : Features} {f : Format} {ty : TType} {cs : ColorSpace} {info : KtxInfo}
    (hv : isFormatValid c f ty = true) (h : ktxInfo f ty cs = some info) :
    ∃ fm, info.format = some fm := by
  have key : ∀ f ∈ Format.all, ∀ ty ∈ TType.all, ∀ cs ∈ [ColorSpace.Linear, ColorSpace.sRGB],
      isFormatValid Features.full f ty = true →
      ∀ info ∈ ktxInfo f ty cs, info.format.isSome = true := by decide +kernel
  exact Option.isSome_iff_exists.1
    (key f f.mem_all ty ty.mem_all cs (by cases cs <;> simp) (valid_full hv) info h)

theorem ktx_valid (f : Format) (ty : TType) (cs : ColorSpace) :
    (ktxInfo f ty cs).isSome = isValidForKtx f ty := by
  have key : ∀ f ∈ Format.all, ∀ ty ∈ TType.all, ∀ cs ∈ [ColorSpace.Linear, ColorSpace.sRGB],
      (ktxInfo f ty cs).isSome = isValidForKtx f ty := by decide +kernel
  exact key f f.mem_all ty ty.mem_all cs (by cases cs <;> simp)

theorem dds_codes {c : Features} {f : Format} {ty : TType} {cs : ColorSpace}
    (hv : isFormatValid c f ty = true) (h : ddsFormat f ty cs ≠ DXGI_UNKNOWN) :
    dxgiBlock (ddsFormat f ty cs) = some (blockWidth f, blockHeight f, blockSize f) ∧
    ddsFormat f ty cs < 2 ^ 32 ∧ isPvrtc f = false := by
  have key : ∀ f ∈ Format.all, ∀ ty ∈ TType.all, ∀ cs ∈ [ColorSpace.Linear, ColorSpace.sRGB],
      isFormatValid Features.full f ty = true → ddsFormat f ty cs ≠ DXGI_UNKNOWN →
      dxgiBlock (ddsFormat f ty cs) = some (blockWidth f, blockHeight f, blockSize f) ∧
      ddsFormat f ty cs < 2 ^ 32 ∧ isPvrtc f = false := by decide +kernel
  exact key f f.mem_all ty ty.mem_all cs (by cases cs <;> simp) (valid_full hv) h

theorem dds_valid (f : Format) (ty : TType) (cs : ColorSpace) :
    ddsFormat f ty cs ≠ DXGI_UNKNOWN ↔ isValidForDds f ty = true := by
  have key : ∀ f ∈ Format.all, ∀ ty ∈ TType.all, ∀ cs ∈ [ColorSpace.Linear, ColorSpace.sRGB],
      (ddsFormat f ty cs ≠ DXGI_UNKNOWN ↔ isValidForDds f ty = true) := by decide +kernel
  exact key f f.mem_all ty ty.mem_all cs (by cases cs <;> simp)

theorem pvr_codes {f : Format} {al : Alpha} {pf : Nat}
    (h : pvrPixelFormat f al = some pf) :
    pvrBlock pf = some (blockWidth f, blockHeight f, blockSize f) ∧ pvrLeast pf = leastBlocks f ∧ pf < 2 ^ 64 := by
  have key : ∀ f ∈ Format.all, ∀ al ∈ [Alpha.None, Alpha.Standard, Alpha.PreMultiplied, Alpha.Encoded],
      ∀ pf ∈ pvrPixelFormat f al,
      pvrBlock pf = some (blockWidth f, blockHeight f, blockSize f) ∧ pvrLeast pf = leastBlocks f ∧ pf < 2 ^ 64 := by decide +kernel
  exact key f f.mem_all al (by cases al <;> simp) pf h

theorem pvr_valid (f : Format) (ty : TType) (al : Alpha) :
    (pvrPixelFormat f al).isSome = isValidForPvr f ty := by
  have key : ∀ f ∈ Format.all, ∀ al ∈ [Alpha.None, Alpha.Standard, Alpha.PreMultiplied, Alpha.Encoded],
      (pvrPixelFormat f al).isSome = isValidForPvr f .UNorm := by decide +kernel
  exact key f f.mem_all al (by cases al <;> simp)

theorem pvr_channelType (f : Format) (ty : TType) : pvrChannelType f ty < 2 ^ 32 := by
  have key : ∀ f ∈ Format.all, ∀ ty ∈ TType.all, pvrChannelType f ty < 2 ^ 32 := by decide +kernel
  exact key f f.mem_all ty ty.mem_all

theorem block_pos {c : Features} {f : Format} {ty : TType} (hv : isFormatValid c f ty = true) :
    0 < blockWidth f ∧ 0 < blockHeight f ∧ 0 < blockSize f ∧ (blockWidth f = 1 ↔ blockHeight f = 1) ∧
    (blockWidth f = 1 ↔ (layout f).isSome = true) := by
  have key : ∀ f ∈ Format.all, ∀ ty ∈ TType.all, isFormatValid Features.full f ty = true →
    0 < blockWidth f ∧ 0 < blockHeight f ∧ 0 < blockSize f ∧ (blockWidth f = 1 ↔ blockHeight f = 1) ∧
    (blockWidth f = 1 ↔ (layout f).isSome = true) := by decide +kernel
  exact key f f.mem_all ty ty.mem_all (valid_full hv)

end Cuttlefish
