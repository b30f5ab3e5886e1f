import Verif.Model.Kernel
/-
Depth restriction settings: pref.CascadeBehaviour (pref/options-navigation-behaviours.go:23-33),
pref.WithDepth (:85-92), pref.WithNoRecurse (:94-101), optionHarvest.afterwards
(internal-traverse-defs.go:39-55) and level.Periscope.Descend (internal/level/periscope.go:70-78).
-/
namespace Traverse

/-- pref.CascadeBehaviour. (pref/options-navigation-behaviours.go:23-33.) -/
structure Cascade where
  depth : Nat := 0
  noRecurse : Bool := false
  deriving DecidableEq, Repr

/-- pref.WithDepth. (pref/options-navigation-behaviours.go:85-92.) -/
def withDepth (n : Nat) (c : Cascade) : Cascade := { c with depth := n }
/-- pref.WithNoRecurse. (pref/options-navigation-behaviours.go:94-101.) -/
def withNoRecurse (c : Cascade) : Cascade := { c with noRecurse := true }
/-- The part of afterwards that concerns Cascade (internal-traverse-defs.go:40-42); it runs after all settings
have been applied. -/
def Cascade.afterwards (c : Cascade) : Cascade := if c.noRecurse then { c with depth := 1 } else c
/-- What mediator.descend passes to the periscope (mediator.go:161). -/
def Nav.withCascade (c : Nav) (k : Cascade) : Nav := { c with maxDepth := k.afterwards.depth }

/-- Periscope.Descend with Go's machine integers: `maximum` is a uint, `int(maximum)` reinterprets its 64
bits as signed (periscope.go:70-78). Returns whether the node is entered. -/
def periscopeDescend (maximum : BitVec 64) (depth : Int) : Bool :=
  !(decide (0 < maximum.toNat) && decide (maximum.toInt < depth))

end Traverse
