import Verif.Model.Texture
import Verif.Spec.Mip
/-
Specification of generated mip chains: what every level of one face and layer (or of a whole 3D
texture) is supposed to contain.
-/
namespace Cuttlefish.Spec
variable {Img : Type}

/-- A custom mip image brought to the size of its level and to the storage format. -/
def fit (L : ImageLib Img) (filter : ResizeFilter) (c : CustomMip Img) (w h : Nat) : Option Img :=
  c.image.join.bind fun g => (L.resize g w h filter).bind fun r =>
    if L.isRGBAF r then some r else L.toRGBAF r

/-- Image stored at a level, and image the next level is computed from, given the custom image of
the level (if any) and the image `gen` generated for it.  The next level continues from the stored
image, except after a custom image with `Once`, where it continues from the generated one. -/
def pick (L : ImageLib Img) (filter : ResizeFilter) (cust : Option (CustomMip Img)) (w h : Nat)
    (gen : Option Img) : Option Img × Option Img :=
  match cust with
  | none => (gen, gen)
  | some c => (fit L filter c w h, if c.replacement = .Once then gen else fit L filter c w h)

/-- Levels of one chain.  Component 1: the image stored at the level.  Component 2: the image the
next level is computed from.  `base` is the level-0 image, `cust` the custom image of a level (if
any). -/
def chain (L : ImageLib Img) (filter : ResizeFilter) (w h : Nat)
    (cust : Nat → Option (CustomMip Img)) (base : Img) : Nat → Option Img × Option Img
  | 0 => (some base, some base)
  | m + 1 => pick L filter (cust (m+1)) (extent w (m+1)) (extent h (m+1))
      ((chain L filter w h cust base m).2.bind fun g =>
        L.resize g (extent w (m+1)) (extent h (m+1)) filter)

/-- The custom images of level `m` of a 3D texture are complete: none, or one for every slice with
a common replacement mode. -/
def consistent3d (find : ImageIndex → Option (CustomMip Img)) (m depth : Nat) : Prop :=
  (∀ d, d < depth → find ⟨.PosX, m, d⟩ = none) ∨
  ∃ r, ∀ d, d < depth → ∃ c, find ⟨.PosX, m, d⟩ = some c ∧ c.replacement = r

/-- `pick` for the slices of one level of a 3D texture. -/
def pick3d (L : ImageLib Img) (filter : ResizeFilter)
    (find : ImageIndex → Option (CustomMip Img)) (m w h d : Nat)
    (gen : List (Option Img)) : List (Option Img) × List (Option Img) :=
  match find ⟨.PosX, m, 0⟩ with
  | none => (gen, gen)
  | some c =>
    let s := (List.range d).map fun i => (find ⟨.PosX, m, i⟩).bind fun c => fit L filter c w h
    (s, if c.replacement = .Once then gen else s)

/-- Slices generated for a level from the slices `src` of the level before: each source slice is
resized, then the slices are filtered along the depth axis. -/
def gen3d (L : ImageLib Img) (filter : ResizeFilter) (cs : ColorSpace) (w h d : Nat)
    (src : List (Option Img)) : List (Option Img) :=
  (List.range d).map fun i => some (L.mip3d
    (src.filterMap fun g => g.bind fun g => L.resize g w h filter) w h d i cs filter)

/-- Levels of a 3D texture; components as in `chain`, slice by slice. -/
def chain3d (L : ImageLib Img) (filter : ResizeFilter) (cs : ColorSpace) (w h d : Nat)
    (find : ImageIndex → Option (CustomMip Img)) (base : List Img) :
    Nat → List (Option Img) × List (Option Img)
  | 0 => (base.map some, base.map some)
  | m + 1 => pick3d L filter find (m+1) (extent w (m+1)) (extent h (m+1)) (extent d (m+1))
      (gen3d L filter cs (extent w (m+1)) (extent h (m+1)) (extent d (m+1))
        (chain3d L filter cs w h d find base m).2)

end Cuttlefish.Spec
