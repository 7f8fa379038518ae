import Verif.Model.Geometry
/-
Sizes in the command line tool (tool/main.cpp:41-61, 108-145).
-/
namespace Cuttlefish

/-- `nextPO2`, tool/main.cpp:41-51. -/
def nextPO2 (size : Nat) : Nat :=
  let size := u32 (size + pow32 - 1)
  let size := size ||| (size >>> 1)
  let size := size ||| (size >>> 2)
  let size := size ||| (size >>> 4)
  let size := size ||| (size >>> 8)
  let size := size ||| (size >>> 16)
  u32 (size + 1)

/-- `nearestPO2`, tool/main.cpp:53-61. -/
def nearestPO2 (size : Nat) : Nat :=
  let next := nextPO2 size
  let prev := next >>> 1
  if prev = 0 then next
  else if u32 (next + pow32 - size) < u32 (size + pow32 - prev) then next else prev

/-- `CommandLine::Size`, tool/CommandLine.h:43-60; `exact n` is any other value of the `int`. -/
inductive SizeOpt where
  | original | nextPO2 | nearestPO2
  | width | widthNextPO2 | widthNearestPO2
  | height | heightNextPO2 | heightNearestPO2
  | min | minNextPO2 | minNearestPO2
  | max | maxNextPO2 | maxNearestPO2
  | exact (n : Int)
  deriving DecidableEq, Repr

/-- `getDimension`, tool/main.cpp:108-145; an `int` becomes an `unsigned int` modulo 2^32. -/
def getDimension (cur width height : Nat) : SizeOpt → Nat
  | .original => cur
  | .nextPO2 => Cuttlefish.nextPO2 cur
  | .nearestPO2 => Cuttlefish.nearestPO2 cur
  | .width => width
  | .widthNextPO2 => Cuttlefish.nextPO2 width
  | .widthNearestPO2 => Cuttlefish.nearestPO2 width
  | .height => height
  | .heightNextPO2 => Cuttlefish.nextPO2 height
  | .heightNearestPO2 => Cuttlefish.nearestPO2 height
  | .min => Nat.min width height
  | .minNextPO2 => Cuttlefish.nextPO2 (Nat.min width height)
  | .minNearestPO2 => Cuttlefish.nearestPO2 (Nat.min width height)
  | .max => Nat.max width height
  | .maxNextPO2 => Cuttlefish.nextPO2 (Nat.max width height)
  | .maxNearestPO2 => Cuttlefish.nearestPO2 (Nat.max width height)
  | .exact n => (n % 2 ^ 32).toNat

end Cuttlefish
