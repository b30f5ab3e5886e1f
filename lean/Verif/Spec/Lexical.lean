import Verif.Model.Paths
/-
Which place a path text names, read element by element: the specification for node paths (C59). It says nothing about how texts are
cleaned or joined.
-/
namespace Traverse

/-- A place, as far as the text of a path tells: below the root directory or below the current directory, how many levels up from
there, and the names down from there, innermost first. -/
structure Place where
  rooted : Bool
  ups : Nat := 0
  down : List Str := []
  deriving DecidableEq, Repr

/-- Going one path element further: an empty element and "." stay, ".." goes to the parent (the root directory is its own parent),
everything else is a name. -/
def Place.go (p : Place) (w : Str) : Place :=
  if w = [] ∨ w = ['.'] then p
  else if w = ['.', '.'] then
    match p.down with
    | _ :: rest => { p with down := rest }
    | [] => if p.rooted then p else { p with ups := p.ups + 1 }
  else { p with down := w :: p.down }

/-- The elements of a text: what lies between the separators. -/
def pieces (s : Str) : List Str := s.splitOn '/'

/-- The place a text names. -/
def placeOf (s : Str) : Place := (pieces s).foldl Place.go { rooted := s.head? == some '/' }

/-- The entry called `w` in the directory `p`. -/
def Place.entry (p : Place) (w : Str) : Place := { p with down := w :: p.down }

end Traverse
