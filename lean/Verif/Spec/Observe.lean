import Verif.Spec.Flat
/-
What a user can observe of a session, and small vocabulary to state properties with.
-/
namespace Traverse
variable {σ : Type}

/-- The state of a fresh session: depth counter 0 (periscope.go:20-22), no call made yet. -/
def St.fresh (x : σ) : St σ := { depth := 0, ext := x, log := [] }

/-- A session on the file system `fs`, whose root lies in directory `pre` and can be stat'ed:
`mediator.Navigate` → `top` (mediator.go:114-128, navigator-agent.go:47-74). -/
def walk (c : Nav) (env : Env σ) (x : σ) (pre : Path) (fs : FS) : Final × St σ :=
  let r := traverse c env [] pre (prep c fs) (St.fresh x)
  (r.1.final, r.2)

/-- Handler calls in order, with their answers. -/
def calls (l : List Ev) : List (Node × Reply) :=
  l.filterMap fun | .invoke n r => some (n, r) | _ => none

/-- The nodes the handler was called for, in order. -/
def invoked (l : List Ev) : List Node := (calls l).map Prod.fst

/-- `p` is a proper ancestor of `q`. -/
def Above (p q : Path) : Prop := p <+: q ∧ p ≠ q

instance (p q : Path) : Decidable (Above p q) := inferInstanceAs (Decidable (_ ∧ _))

/-- A genuine error: neither nil nor one of the two skip sentinels. -/
def Genuine (e : Err) : Prop := e.isSkipDir = false ∧ e.isSkipAll = false

/-- The skip handler in use is the default one (pref/defaults.go:93-97). -/
def DefaultSkip (env : Env σ) : Prop := ∀ x n re, (env.ask x n re).2 = (.none, none)

/-- The handler always returns nil. -/
def AlwaysNil (env : Env σ) : Prop := ∀ x n, (env.invoke x n).2 = .ok none

/-- The sort hook reorders, it neither drops nor invents entries. -/
def SortPermutes (c : Nav) : Prop := ∀ l, (c.sort l).Perm l

/-- The read hook only selects entries (it may drop and reorder, not invent). -/
def ReadSelects (c : Nav) : Prop := ∀ l e, ∃ l' : List Tree, l'.Perm (c.read l e).1 ∧ l'.Sublist l

mutual
/-- No directory holds two entries of the same name. -/
def FS.Distinct : FS → Prop
  | .file .. => True
  | .dir _ _ _ kids => (kids.map FS.name).Nodup ∧ FS.DistinctL kids
def FS.DistinctL : List FS → Prop
  | [] => True
  | f :: fs => f.Distinct ∧ FS.DistinctL fs
end

mutual
/-- The same for prepared trees. -/
def Tree.Distinct : Tree → Prop
  | .node _ _ _ _ kids => (kids.map Tree.name).Nodup ∧ Tree.DistinctL kids
def Tree.DistinctL : List Tree → Prop
  | [] => True
  | t :: ts => t.Distinct ∧ Tree.DistinctL ts
end

end Traverse

namespace Traverse

/-- The directories a history declined: the handler answered with an error, or the skip handler's verdict
was to skip. -/
def declined (sub : Subscription) (l : List Ev) : List Path :=
  l.filterMap fun
    | .invoke n (.ok (some _)) => some n.path
    | .ask n re sk e => if verdict sub re sk e = .travel then none else some n.path
    | _ => none

/-- Not strictly below any of the given paths. -/
def outside (ps : List Path) (n : Node) : Bool := decide (∀ p ∈ ps, ¬ Above p n.path)

/-- The paths for which the handler answered with an error. -/
def refused (l : List Ev) : List Path :=
  l.filterMap fun | .invoke n (.ok (some _)) => some n.path | _ => none

/-- `m` is left out because of an earlier refused file whose directory it lies in (`L` is the visiting order). -/
def leftOut (L : List Path) (ps : List Path) (m : Path) : Prop := ∃ p ∈ ps, [p, m].Sublist L ∧ p.dropLast <+: m

instance (L ps m) : Decidable (leftOut L ps m) := inferInstanceAs (Decidable (∃ _ ∈ _, _ ∧ _))

end Traverse
