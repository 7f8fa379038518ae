import Verif.Spec.Converted
import Verif.Spec.EncoderOptions
/-
Specification of block compressed surfaces: the texels a block is made from, and what is handed to
the compression libraries.
-/
namespace Cuttlefish.Spec

/-- The ETC and EAC formats: 4x4 blocks, cropped at the image edge. -/
def isEtc : Format → Bool
  | .ETC1 | .ETC2_R8G8B8 | .ETC2_R8G8B8A1 | .ETC2_R8G8B8A8 | .EAC_R11 | .EAC_R11G11 => true
  | _ => false

/-- What a block encoder sees of block `(bx, by)`: the extents and the texels, row by row. -/
def blockTexels (f : Format) (img : FImg) (bx by_ : Nat) : Nat × Nat × List Pixel :=
  if isEtc f then (insideExtent img.width bx, insideExtent img.height by_, croppedBlock img bx by_)
  else (blockWidth f, blockHeight f, clampedBlock img (blockWidth f) (blockHeight f) bx by_)

/-- The bytes are the nearest unsigned 8-bit values of the channels, in order. -/
def UNormBytes (vs : List Nat) (bs : List UInt8) : Prop :=
  List.Forall₂ (fun v b => IsUNorm 8 v b.toNat) vs bs

/-- The bytes are the nearest signed 8-bit values of the channels, in order. -/
def SNormBytes (vs : List Nat) (bs : List UInt8) : Prop :=
  List.Forall₂ (fun v b => IsSNorm 8 v b.toNat) vs bs

/-- The four bits of texel `i` of a BC2 alpha block: two texels per byte, the first in the low
bits. -/
def nibble (bs : List UInt8) (i : Nat) : Nat := (bs.getD (i / 2) 0).toNat / 16 ^ (i % 2) % 16

/-- The alpha half of a BC2 block: eight bytes with the nearest 4-bit value of each texel. -/
def Bc2Alpha (ps : List Pixel) (bs : List UInt8) : Prop :=
  2 * bs.length = ps.length ∧
  ∀ (i : Nat) (p : Pixel), ps[i]? = some p → IsUNorm 4 p.a (nibble bs i)

/-- All four channels of all texels. -/
def allChannels (ps : List Pixel) : List Nat := ps.flatMap (fun p => [p.r, p.g, p.b, p.a])

/-- Is a texel transparent for BC1 with one bit alpha? -/
def transparent (p : Pixel) : Prop := (F32.ofBits p.a).lt (.fin (1 / 2)) = true

/-- The bytes of a block of each S3TC format: what is handed to which library, with which options. -/
def S3tcBlock (X : Ext) (a : ConvArgs) (ps : List Pixel) (bytes : List UInt8) : Prop :=
  let level := levelOf X.consts a.quality
  match a.format, a.type with
  | .BC1_RGB, _ => ∃ px, UNormBytes (allChannels ps) px ∧
      bytes = X.codec (.rgbcxBc1 level px true true)
  | .BC1_RGBA, _ => ∃ px, UNormBytes (allChannels ps) px ∧
      ((∃ p ∈ ps, transparent p) → ∃ fit w, SquishWeights a.colorSpace a.colorMask w ∧
        (fit = .range ↔ rank a.quality ≤ 1) ∧ (fit = .iterative ↔ a.quality = .Highest) ∧
        bytes = X.codec (.squishBc1 fit px w)) ∧
      ((∀ p ∈ ps, ¬ transparent p) → bytes = X.codec (.rgbcxBc1 level px true false))
  | .BC2, _ => ∃ px alpha, UNormBytes (allChannels ps) px ∧ Bc2Alpha ps alpha ∧
      bytes = alpha ++ X.codec (.rgbcxBc1 level px false false)
  | .BC3, _ => ∃ px, UNormBytes (allChannels ps) px ∧
      bytes = X.codec (match hqRadius a.quality with
        | none => .rgbcxBc3 level px
        | some r => .rgbcxBc3hq level px r)
  | .BC4, .SNorm => ∃ px, SNormBytes (ps.map Pixel.r) px ∧
      bytes = X.codec (.cmpBc4s (.fin (rank a.quality / 4)) px)
  | .BC4, _ => ∃ px, UNormBytes (ps.map Pixel.r) px ∧
      bytes = X.codec (match hqRadius a.quality with
        | none => .rgbcxBc4 px
        | some r => .rgbcxBc4hq px r)
  | .BC5, .SNorm => ∃ red green, SNormBytes (ps.map Pixel.r) red ∧ SNormBytes (ps.map Pixel.g) green ∧
      bytes = X.codec (.cmpBc5s (.fin (rank a.quality / 4)) red green)
  | .BC5, _ => ∃ px, UNormBytes (ps.flatMap (fun p => [p.r, p.g])) px ∧
      bytes = X.codec (match hqRadius a.quality with
        | none => .rgbcxBc5 px
        | some r => .rgbcxBc5hq px r)
  | .BC6H, ty =>
      (X.ispc = true → ty = .UFloat → ∃ p, speed p = rank a.quality ∧
        bytes = X.codec (.ispcBc6 p ((allChannels ps).map X.half))) ∧
      (X.ispc = false ∨ ty = .Float → bytes = X.codec (.cmpBc6 (.fin (rank a.quality / 4)) (ty = .Float)
        ((ps.flatMap (fun p => [p.r, p.g, p.b])).map X.half)))
  | .BC7, _ => ∃ px, UNormBytes (allChannels ps) px ∧
      (X.ispc = true → ∃ p, speed p = rank a.quality ∧
        bytes = X.codec (.bc7e p (a.colorSpace = .sRGB) px)) ∧
      (X.ispc = false → ∃ p : Bc7Params, Bc7Weights X.consts a.quality a.colorSpace a.colorMask p.weights ∧
        bytes = X.codec (.bc7enc p px))
  | _, _ => True

/-- Signed EAC channels are moved from -1..1 to 0..1 in single precision; the result `v'` denotes
`v/2 + 1/2`, each operation rounded. -/
def Halved (v v' : Nat) : Prop :=
  match F32.ofBits v with
  | .fin q => ∃ r, F32.ofBits v' = .fin r ∧ r = rne (rne (q / 2) + 1 / 2)
  | .inf s => F32.ofBits v' = .inf s
  | .nan => F32.ofBits v' = .nan

end Cuttlefish.Spec
