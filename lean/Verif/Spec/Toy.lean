import Verif.Spec.Texture
import Verif.Spec.Safe
/-
A small image library that satisfies every assumption made of the image class.  It is used only in
examples (to show that hypotheses can be met) and in counterexamples.  An image carries its size,
whether it is RGBAF, its colour space and a list of tags that says where its pixels came from.
-/
namespace Cuttlefish.Toy

structure Img where
  w : Nat
  h : Nat
  rgbaf : Bool
  cs : ColorSpace
  tags : List Nat
  deriving DecidableEq, Repr

/-- As in lib/src/Image.cpp, images that are not RGBAF cannot be resized with every filter
(lib/src/Image.cpp:1366-1385 sends Int16 and similar images to a loop that knows two filters);
images tagged 99 stand for images that cannot be converted. -/
def lib : ImageLib Img where
  width g := g.w
  height g := g.h
  isRGBAF g := g.rgbaf
  colorSpace g := g.cs
  toRGBAF g := if g.tags.contains 99 then none else some { g with rgbaf := true }
  changeColorSpace g cs := { g with cs }
  resize g w h filter :=
    if g.rgbaf || filter == .Box || filter == .Linear then some { g with w, h } else none
  mip3d src w h _ _ cs _ := ⟨w, h, true, cs, src.flatMap (·.tags)⟩

theorem lawful : Lawful lib := by
  refine ⟨?_, ?_, ?_, ?_, ?_⟩
  · intro g g' h
    simp only [lib] at h ⊢
    split at h
    · simp at h
    · simp only [Option.some.injEq] at h; subst h; simp
  · intro g cs; simp [lib]
  · intro g w h filter g' hh
    simp only [lib] at hh ⊢
    split at hh
    · simp only [Option.some.injEq] at hh; subst hh; simp
    · simp at hh
  · intro g w h filter hr hw hh
    simp only [lib] at hr ⊢
    simp [hr]
  · intro src w h d i cs filter; simp [lib]

/-- Encoding writes the tags. -/
def enc : Encoder Img := fun _ _ g => .ok (g.tags.map UInt8.ofNat)

def world : World Img := ⟨lib, ⟨true, true, true, true⟩, 4, enc⟩

/-- A valid image with the given size and tag. -/
def img (w h tag : Nat) : Img := ⟨w, h, true, .Linear, [tag]⟩

/-- `setImage` of such an image. -/
def put (w h tag : Nat) (face : Option CubeFace) (mip depth : Nat) : Op Img :=
  .setImage (some (img w h tag)) false face mip depth

end Cuttlefish.Toy
