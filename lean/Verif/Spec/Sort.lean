import Verif.Model.Sort
import Verif.Spec.Faults
/-
Vocabulary for the order in which directories are visited.
-/
namespace Traverse

mutual
/-- Two file systems that differ only in the order in which the entries of directories are returned. -/
inductive FS.Shuffled : FS → FS → Prop
  | file (n ie re) : FS.Shuffled (.file n ie re) (.file n ie re)
  | dir (n ie re) {kids mid kids' : List FS} (hp : kids.Perm mid) (h : FS.ShuffledL mid kids') :
      FS.Shuffled (.dir n ie re kids) (.dir n ie re kids')
inductive FS.ShuffledL : List FS → List FS → Prop
  | nil : FS.ShuffledL [] []
  | cons {f f' fs fs'} (h : FS.Shuffled f f') (hs : FS.ShuffledL fs fs') : FS.ShuffledL (f :: fs) (f' :: fs')
end

mutual
/-- In no directory two files, or two directories, have the same key. -/
def FS.KeysDiffer (key : String → String) : FS → Prop
  | .file .. => True
  | .dir _ _ _ kids => (∀ b : Bool, ((kids.filter (fun k => k.isDir == b)).map (fun k => key k.name)).Nodup) ∧
      FS.KeysDifferL key kids
def FS.KeysDifferL (key : String → String) : List FS → Prop
  | [] => True
  | f :: fs => f.KeysDiffer key ∧ FS.KeysDifferL key fs
end

end Traverse
