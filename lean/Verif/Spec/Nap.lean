import Verif.Spec.Api
/-
Vocabulary for what a client sees of a session after its Sleep event (C26).
-/
namespace Traverse

/-- A Descend event: its path, and whether it is a directory's. -/
def Obs.entry : Obs → Option (Path × Bool)
  | .note (.descend p d) => some (p, d)
  | _ => none

/-- The Descend events, in order. -/
def entries (t : List Obs) : List (Path × Bool) := t.filterMap Obs.entry

/-- The nodes the handler is called for, in order. -/
def handed (t : List Obs) : List Node := t.filterMap fun ob => match ob with | .call n => some n | _ => none

end Traverse
