import Verif.Model.Save
/-
Vocabulary for statements about files and streams.
-/
namespace Cuttlefish.Spec

/-- The bytes of an ASCII text. -/
def ascii (s : String) : List UInt8 := s.toList.map (fun c => UInt8.ofNat c.toNat)

/-- The lower case of an ASCII letter; other bytes are unchanged. -/
def asciiLower (b : UInt8) : UInt8 :=
  if (UInt8.ofNat 'A'.toNat ≤ b ∧ b ≤ UInt8.ofNat 'Z'.toNat) then b + 32 else b

/-- The name ends with the (lower case) extension, ignoring the case of ASCII letters. -/
def EndsWith (name ext : List UInt8) : Prop :=
  ∃ base suffix, name = base ++ suffix ∧ suffix.map asciiLower = ext

/-- A device that accepts `n` bytes in total. -/
def failAfter (n : Nat) : Device := fun accepted chunk =>
  if accepted.length + chunk.length ≤ n then none else some (n - accepted.length)

/-- The file `save` is supposed to write: what a stream that never fails receives. -/
def FullFile {Img : Type} (t : Tex Img) (ft : FileType) (full : List UInt8) : Prop :=
  t.save Device.perfect ft ⟨[], true⟩ = .ok (.Success, ⟨full, true⟩)

/-- The number of the face an API call addresses (0 for textures without faces). -/
def faceNumber (face : Option CubeFace) : Nat := (face.getD .PosX).toNat

end Cuttlefish.Spec
