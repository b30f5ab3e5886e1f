import Verif.Spec.Enumerate
/-
File systems without the faults: vocabulary for the properties about unreadable directories and failing
entry information.
-/
namespace Traverse

mutual
/-- Every unreadable directory replaced by a readable, empty one (and what reading a file would answer
forgotten). -/
def FS.emptied : FS → FS
  | .file n ie _ => .file n ie none
  | .dir n ie re kids => if re.isSome then .dir n ie none [] else .dir n ie none (FS.emptiedL kids)
def FS.emptiedL : List FS → List FS
  | [] => []
  | f :: fs => f.emptied :: FS.emptiedL fs
end

mutual
/-- The same file system with every directory readable. -/
def FS.mended : FS → FS
  | .file n ie _ => .file n ie none
  | .dir n ie _ kids => .dir n ie none (FS.mendedL kids)
def FS.mendedL : List FS → List FS
  | [] => []
  | f :: fs => f.mended :: FS.mendedL fs
end

mutual
/-- The unreadable directories that can be reached (not inside another one, not under ".DS_Store"). -/
def FS.badDirs (pre : Path) : FS → List Path
  | .file .. => []
  | .dir n _ re kids => if re.isSome then [pre ++ [n]] else FS.badDirsL (pre ++ [n]) kids
def FS.badDirsL (pre : Path) : List FS → List Path
  | [] => []
  | f :: fs => (if f.name = ".DS_Store" then [] else FS.badDirs pre f) ++ FS.badDirsL pre fs
end

mutual
/-- The same file system where obtaining entry information never fails. -/
def FS.informed : FS → FS
  | .file n _ re => .file n none re
  | .dir n _ re kids => .dir n none re (FS.informedL kids)
def FS.informedL : List FS → List FS
  | [] => []
  | f :: fs => f.informed :: FS.informedL fs
end

/-- The error of obtaining this entry's information. -/
def FS.infoErr : FS → Option Err
  | .file _ ie _ => ie
  | .dir _ ie _ _ => ie

/-- Names of the sub directories a directory shows with the default read hook. -/
def FS.subDirs : FS → List String
  | .file .. => []
  | .dir _ _ re kids =>
    if re.isSome then [] else ((kids.filter (fun k => k.name != ".DS_Store")).filter (fun k => k.isDir)).map FS.name

/-- The sort hook permutes and looks at names and kinds only (both built in hooks do). -/
def SortByNames (c : Nav) : Prop :=
  ∀ ps : List (Tree × Tree), (∀ p ∈ ps, p.1.name = p.2.name ∧ p.1.isDir = p.2.isDir) →
    ∃ qs : List (Tree × Tree), qs.Perm ps ∧ c.sort (ps.map Prod.fst) = qs.map Prod.fst ∧
      c.sort (ps.map Prod.snd) = qs.map Prod.snd

theorem SortByNames.byEntries {c : Nav} (h : SortByNames c) : SortByEntries c := by
  intro ps hp
  exact h ps (fun p hm => by simp only [Tree.name, Tree.isDir, hp p hm, and_self])

/-! ### Forgetting entry errors -/

def NodeInfo.noInfoErr (m : NodeInfo) : NodeInfo := { m with infoErr := none }
def Entry.noInfoErr (e : Entry) : Entry := { e with infoErr := none }
def Node.noInfoErr (n : Node) : Node :=
  { toNodeInfo := n.toNodeInfo.noInfoErr
    parents := n.parents.map NodeInfo.noInfoErr
    cargo := n.cargo.map fun fd => (fd.1.map Entry.noInfoErr, fd.2.map Entry.noInfoErr) }
def Ev.noInfoErr : Ev → Ev
  | .invoke n r => .invoke n.noInfoErr r
  | .ask n re sk e => .ask n.noInfoErr re sk e
  | .rescue m d r => .rescue m.noInfoErr d r
  | ev => ev

/-- The handlers do not look at entry errors. -/
structure InfoBlind {σ : Type} (env : Env σ) : Prop where
  invoke : ∀ x n, env.invoke x n = env.invoke x n.noInfoErr
  ask : ∀ x n re, env.ask x n re = env.ask x n.noInfoErr re
  rescue : ∀ x m d, env.rescue x m d = env.rescue x m.noInfoErr d

end Traverse
