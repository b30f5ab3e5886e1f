import Verif.Model.Sampling
import Verif.Spec.Faults
/-
What sampling should do, said on file systems.
-/
namespace Traverse

/-- The first `n` elements, or the last `n` of them; zero stands for all. -/
def portion {α : Type} (n : Nat) (inReverse : Bool) (l : List α) : List α :=
  if n = 0 then l else if inReverse then (l.reverse.take n).reverse else l.take n

/-- The scope `s` names directories (`true`) or files (`false`): bit 5 and bit 4 of a FilterScope (enums/filter-scope-en.go: ScopeFile is
1 << 4, ScopeDirectory is 1 << 5). -/
def Scope.names (s : Scope) (dir : Bool) : Bool := s.getLsbD (if dir then 5 else 4)

/-- The directory entry of something. -/
def FS.entry (f : FS) : Entry := ⟨f.name, f.isDir, f.infoErr⟩

/-- Of the entries the file system returns for a directory (".DS_Store" never counts) those that satisfy `keep`, and of
these the portion of the files and the portion of the directories. -/
def sampleOf (keep : Entry → Bool) (q : Quota) (kids : List FS) : List FS :=
  let shown := (kids.filter (fun k => k.name != ".DS_Store")).filter (fun k => keep k.entry)
  portion q.files q.inReverse (shown.filter (fun k => !k.isDir)) ++
  portion q.dirs q.inReverse (shown.filter (fun k => k.isDir))

mutual
/-- The file system in which each directory holds only its sample. An unreadable directory is replaced by a readable empty
one. -/
def FS.sampled (keep : Entry → Bool) (q : Quota) : FS → FS
  | .file n ie re => .file n ie re
  | .dir n ie re kids =>
    if re.isSome then .dir n ie none [] else .dir n ie none (sampleOf keep q (FS.sampledL keep q kids))
def FS.sampledL (keep : Entry → Bool) (q : Quota) : List FS → List FS
  | [] => []
  | f :: fs => f.sampled keep q :: FS.sampledL keep q fs
end

end Traverse
