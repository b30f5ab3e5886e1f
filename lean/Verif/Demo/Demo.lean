import Verif.Spec.Enumerate
/-
A concrete file system and concrete handlers, used by the `example`s beside the properties.
-/
namespace Traverse.Demo

/-- Small tree: four levels, files and directories mixed, one empty directory, one unreadable directory. -/
def fs : FS :=
  .dir "r" none none [
    .dir "a" none none [.file "x" none none, .dir "b" none none [.file "y" none none, .file "z" none none]],
    .file "f" none none,
    .dir "c" none none [.file "w" none none],
    .file ".DS_Store" none none,
    .file "g" none none]

/-- The same with an unreadable directory. -/
def fsBad : FS :=
  .dir "r" none none [
    .dir "a" none (some (.code 13)) [.file "x" none none],
    .file "f" none none,
    .dir "c" none none [.file "w" none none]]

/-- A navigator with the default read hook and a sort hook that reverses. -/
def nav (sub : Subscription) : Nav := { sub, read := defaultRead, sort := List.reverse }

/-- A handler that answers by the node's path, all other hooks being the defaults; the panic handler saves. -/
def env (answer : Path → Reply) : Env Unit where
  descend x _ _ := x
  ascend x _ _ := x
  invoke x n := (x, answer n.path)
  ask x _ _ := (x, .none, none)
  rescue x _ _ := (x, .saved "dest")

def quiet : Path → Reply := fun _ => .ok none

def at_ (p : Path) (r : Reply) : Path → Reply := fun q => if q = p then r else .ok none

def run (sub : Subscription) (answer : Path → Reply) : Final × List (Path × Reply) :=
  let r := walk (nav sub) (env answer) () [] fs
  (r.1, (calls r.2.log).map fun c => (c.1.path, c.2))

theorem sortPermutes (sub) : SortPermutes (nav sub) := fun l => List.reverse_perm l

theorem distinct : fs.Distinct := by simp [fs, FS.Distinct, FS.DistinctL, FS.name]

end Traverse.Demo
