import Verif.Model.CommandLine
/-
Creating the directory of the output file (tool/main.cpp:81-106).
-/
namespace Cuttlefish

/-- The result of `mkdir`: 0, -1 with `errno == EEXIST`, or -1 with another error. -/
inductive MkdirResult where
  | created | exists_ | error
  deriving DecidableEq, Repr

/-- `path.find_first_of("/", start)`: the POSIX separator (`CUTTLEFISH_WINDOWS` is not modelled). -/
def findSeparator (path : Str) (start : Nat) : Option Nat :=
  (List.range path.length).find? (fun k => decide (start ≤ k) && decide (path[k]? = some 47))

/-- The loop of `createParentDir`, tool/main.cpp:90-105.  The separator is overwritten by a zero while
`mkdir` reads the name.  A loop that does not end within `fuel` iterations would be `Res.ub`. -/
def createParentLoop {σ : Type} (mkdir : σ → Str → σ × MkdirResult) (path : Str) :
    Nat → Nat → σ → Res (Bool × σ)
  | 0, _, _ => .ub
  | fuel + 1, prevPos, s =>
    match findSeparator path (prevPos + 1) with
    | none => .ok (true, s)
    | some nextPos =>
      let r := mkdir s (cString (path.set nextPos 0))
      if r.2 = .error then .ok (false, r.1) else createParentLoop mkdir path fuel nextPos r.1

/-- `createParentDir`, tool/main.cpp:82-106, on a system with the given `mkdir`. -/
def createParentDir {σ : Type} (mkdir : σ → Str → σ × MkdirResult) (path : Str) (s : σ) :
    Res (Bool × σ) :=
  createParentLoop mkdir path (path.length + 1) 0 s

end Cuttlefish
