import Verif.Model.Kernel
/-
What a client may expect of the Parent of a node, of its Parent, and so on.
-/
namespace Traverse

/-- The chain of Parent pointers of `m` leads from the directory that contains it, directory by directory, to the one at `root`, whose
Parent is nil: one for each level, nearest first, each with its own path and depth. -/
structure Lineage (root : Path) (m : Node) : Prop where
  below : root <+: m.path
  count : m.parents.length + root.length = m.path.length
  each : ∀ (i : Nat) (q : NodeInfo), m.parents[i]? = some q →
    q.path = m.path.take (m.path.length - (i + 1)) ∧ q.depth = m.depth - (i + 1) ∧ q.isDir = true

/-- `q` is the Parent of `m`, or the Parent of that, and so on. With all that can be seen of it, its own Parents included. -/
def Forebear (q m : Node) : Prop := (q.toNodeInfo :: q.parents) <:+ m.parents

end Traverse
