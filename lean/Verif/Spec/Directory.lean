import Verif.Model.Directory
/-
What creating the parent directories of a file means.
-/
namespace Cuttlefish.Spec

/-- The names of the directories above a file, outermost first: everything in front of a separator
that is not the first character. -/
def ancestors (path : Str) : List Str :=
  ((List.range path.length).filter (fun k => decide (0 < k) && decide (path[k]? = some 47))).map path.take

/-- Calling `mkdir` for names in order, up to the first error. -/
def makeAll {σ : Type} (mkdir : σ → Str → σ × MkdirResult) : List Str → σ → Bool × σ
  | [], s => (true, s)
  | p :: ps, s =>
    match mkdir s p with
    | (s', .error) => (false, s')
    | (s', _) => makeAll mkdir ps s'

/-- What is at a place of the file system. -/
inductive Entry where
  | nothing | directory | other
  deriving DecidableEq

/-- The rules of POSIX for `mkdir` on a file system: `place` is what a name refers to, `look` what is
there.  Creation makes a directory where nothing was and changes nothing else; otherwise nothing changes;
`EEXIST` means that something is there, and any other error that nothing can be found there. -/
structure LawfulMkdir {σ π : Type} (place : Str → π) (look : σ → π → Entry)
    (mkdir : σ → Str → σ × MkdirResult) : Prop where
  created : ∀ s p s', mkdir s p = (s', .created) → look s (place p) = .nothing ∧
    look s' (place p) = .directory ∧ ∀ x, x ≠ place p → look s' x = look s x
  exists_ : ∀ s p s', mkdir s p = (s', .exists_) → s' = s ∧ look s (place p) ≠ .nothing
  error : ∀ s p s', mkdir s p = (s', .error) → s' = s ∧ look s (place p) = .nothing

end Cuttlefish.Spec
