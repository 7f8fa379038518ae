import Verif.Model.Tables
/-
Mip-chain geometry: `clz`, `maxMipmapLevels` and 32-bit helpers.
-/
namespace Cuttlefish

/-- 2^32, the modulus of C++ `unsigned int` arithmetic on all supported platforms. -/
abbrev pow32 : Nat := 4294967296

/-- Result of an `unsigned int` computation whose mathematical value is `n`. -/
def u32 (n : Nat) : Nat := n % pow32

/-- `unsigned int x >> k`.  Shifting by 32 or more is undefined behaviour. -/
def shr32 (x k : Nat) : Res Nat := if k < 32 then .ok (x >>> k) else .ub

/-- `clz`, lib/src/Texture.cpp:86-101: 32 for 0, otherwise 31 minus the index of the highest
set bit (`_BitScanReverse`, respectively `__builtin_clz`). -/
def clz (x : Nat) : Nat := if x = 0 then 32 else 31 - Nat.log2 x

/-- `Texture::maxMipmapLevels`, lib/src/Texture.cpp:514-527. -/
def maxMipmapLevels (dim : Dimension) (width height depth : Nat) : Nat :=
  let levelCountWidth := 32 - clz width
  let levelCountHeight := 32 - clz height
  let maxWidthHeight := max levelCountWidth levelCountHeight
  if dim = .Dim3D then
    let levelCountDepth := 32 - clz depth
    max maxWidthHeight levelCountDepth
  else
    maxWidthHeight

end Cuttlefish
