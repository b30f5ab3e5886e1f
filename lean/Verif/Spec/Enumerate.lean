import Verif.Spec.Observe
/-
Independent enumeration of what a file system holds, and the assumptions on hooks used by the
properties.
-/
namespace Traverse

mutual
/-- Everything at or below a path that the default read hook lets through, with its kind: the root and,
for readable directories, all entries not named ".DS_Store" and everything below them. -/
def FS.nodes (pre : Path) : FS → List (Path × Bool)
  | .file n _ _ => [(pre ++ [n], false)]
  | .dir n _ re kids =>
    (pre ++ [n], true) :: (if re.isSome then [] else FS.nodesL (pre ++ [n]) kids)
def FS.nodesL (pre : Path) : List FS → List (Path × Bool)
  | [] => []
  | f :: fs => (if f.name = ".DS_Store" then [] else FS.nodes pre f) ++ FS.nodesL pre fs
end

mutual
/-- Every directory can be read. -/
def FS.Readable : FS → Prop
  | .file .. => True
  | .dir _ _ re kids => re = none ∧ FS.ReadableL kids
def FS.ReadableL : List FS → Prop
  | [] => True
  | f :: fs => f.Readable ∧ FS.ReadableL fs
end

/-- The sort hook is a permutation that depends on the entries only (not on what lies below them). -/
def SortByEntries (c : Nav) : Prop :=
  ∀ ps : List (Tree × Tree), (∀ p ∈ ps, p.1.entry = p.2.entry) →
    ∃ qs : List (Tree × Tree), qs.Perm ps ∧ c.sort (ps.map Prod.fst) = qs.map Prod.fst ∧
      c.sort (ps.map Prod.snd) = qs.map Prod.snd

/-- `FS.At pre f p g`: in `f`, whose root lies in directory `pre`, the path `p` leads to `g`. -/
inductive FS.At : Path → FS → Path → FS → Prop
  | here (pre : Path) (f : FS) : FS.At pre f (pre ++ [f.name]) f
  | inside {pre : Path} {n : String} {ie re : Option Err} {kids : List FS} {k : FS} {p : Path} {g : FS}
      (hk : k ∈ kids) (h : FS.At (pre ++ [n]) k p g) : FS.At pre (.dir n ie re kids) p g

/-- The order in which the entries of a directory are to be visited: those the read hook returns,
directories in the order of the sort hook before files in the order of the sort hook (the other way
round with SortFilesFirst); directories only, for the Directories subscriptions. -/
def visitOrder (c : Nav) : FS → List String
  | .file .. => []
  | .dir _ _ re kids =>
    let ents := (c.read (kids.map (prep c)) re).1
    let ds := c.sort (ents.filter (fun t => t.isDir))
    let fs := c.sort (ents.filter (fun t => !t.isDir))
    match c.sub with
    | .directories | .directoriesWithFiles => ds.map Tree.name
    | _ => if c.filesFirst then (fs ++ ds).map Tree.name else (ds ++ fs).map Tree.name

end Traverse
