import Verif.Spec.Observe
/-
Vocabulary for skip handlers whose answers depend on the path only (C16).
-/
namespace Traverse

/-- Whether a skip handler's answer for a directory suppresses what is below it: any but SkipNone, except that the Directories
subscriptions look at SkipAll only. -/
def cuts (sub : Subscription) (sk : Skip) : Bool :=
  match sub with
  | .directories | .directoriesWithFiles => sk == .all
  | _ => sk != .none

/-- Nothing above the node among the given paths is cut off. -/
def uncut (sub : Subscription) (ans : Path → Skip) (ps : List Path) (m : Node) : Bool :=
  decide (∀ p ∈ ps, cuts sub (ans p) = true → ¬ Above p m.path)

end Traverse
