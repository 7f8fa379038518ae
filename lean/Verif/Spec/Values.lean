import Verif.Model.Objects
/-
Value semantics for variables: what a user expects from objects that behave like `int`s.
-/
namespace Cuttlefish.Spec

/-- Replace the entry of one variable. -/
def upd {β : Type} (f : Nat → β) (a : Nat) (b : β) : Nat → β := fun x => if x = a then b else f x

/-- Every live variable holds its own texture value (`none`: the invalid texture). -/
abbrev TexVals (Img : Type) := Nat → Option (Tex Img)

section
variable {Img : Type}

/-- Operations on values: copying copies the value, moving transfers it and leaves the invalid
texture behind, a public call changes only its own variable.  Using a dead variable is an error. -/
def TexVals.step (W : World Img) (s : TexVals Img) : TexOp Img → Res (Option (Out Img) × TexVals Img)
  | .construct v => match s v with
    | some _ => .ub
    | none => .ok (none, upd s v (some none))
  | .destroy v => match s v with
    | none => .ub
    | some _ => .ok (none, upd s v none)
  | .copyCtor dst src => match s dst, s src with
    | none, some t => .ok (none, upd s dst (some t))
    | _, _ => .ub
  | .moveCtor dst src => match s dst, s src with
    | none, some t => .ok (none, upd (upd s src (some none)) dst (some t))
    | _, _ => .ub
  | .copyAssign dst src => match s dst, s src with
    | some _, some t => .ok (none, upd s dst (some t))
    | _, _ => .ub
  | .moveAssign dst src => match s dst, s src with
    | some _, some t => .ok (none, upd (if dst = src then s else upd s src (some none)) dst (some t))
    | _, _ => .ub
  | .call v op => match s v with
    | none => .ub
    | some t => do
      let r ← call W t op
      pure (some r.1, upd s v (some r.2))

/-- A history on values. -/
def TexVals.run (W : World Img) : TexVals Img → List (TexOp Img) →
    Res (List (Option (Out Img)) × TexVals Img)
  | s, [] => .ok ([], s)
  | s, o :: os => do
    let r ← TexVals.step W s o
    let rs ← TexVals.run W r.2 os
    pure (r.1 :: rs.1, rs.2)

/-- The variables an operation may change. -/
def changes : TexOp Img → List Nat
  | .construct v | .destroy v | .call v _ => [v]
  | .copyCtor dst _ | .copyAssign dst _ => [dst]
  | .moveCtor dst src | .moveAssign dst src => [dst, src]

end
end Cuttlefish.Spec
