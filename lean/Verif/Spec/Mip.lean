import Verif.Model.Tables
/-
Specification of a mip chain: halve, round down, never below one.
-/
namespace Cuttlefish.Spec

/-- One mip step of an extent. -/
def halve (n : Nat) : Nat := if n ≤ 1 then 1 else n / 2

/-- The extent of level `k` of a chain that starts with `n`. -/
def extent (n : Nat) : Nat → Nat
  | 0 => n
  | k + 1 => halve (extent n k)

/-- All extents that take part in mipping for a texture kind (depth only for 3D). -/
def mipped (dim : Dimension) (w h d : Nat) : List Nat :=
  if dim = .Dim3D then [w, h, d] else [w, h]

/-- Level `k` of the chain has every mipped extent equal to one. -/
def isLast (dim : Dimension) (w h d k : Nat) : Prop :=
  ∀ n ∈ mipped dim w h d, extent n k = 1

/-- Depth of level `k`: halved for 3D textures, the (non-zero) layer count otherwise. -/
def depthExtent (dim : Dimension) (d k : Nat) : Nat :=
  if dim = .Dim3D then extent d k else if d = 0 then 1 else d

end Cuttlefish.Spec
