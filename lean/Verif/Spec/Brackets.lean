import Verif.Spec.Observe
/-
Well nested histories: a small grammar.
-/
namespace Traverse

/-- The call concerns the node at `p` itself: its handler call or its skip handler call. -/
def Ev.concerns (p : Path) : Ev → Prop
  | .invoke n _ => n.path = p
  | .ask n _ _ _ => n.path = p
  | _ => False

mutual
/-- `Visit p l`: `l` is the history of one visit of the node at `p`: one Descend, the calls for the node itself
(one handler call at most, skip handler), the visits of nodes directly inside it, possibly the rescue of a panic that came from
inside, one Ascend. -/
inductive Visit : Path → List Ev → Prop
  | mk (p : Path) (isDir : Bool) (own inner tail : List Ev)
      (hown : ∀ ev ∈ own, ev.concerns p) (hone : (calls own).length ≤ 1) (hlen : own.length ≤ 2)
      (hinner : Visits p inner)
      (htail : tail = [] ∨ ∃ n d r, tail = [.rescue n d r] ∧ n.path = p) :
      Visit p ([.descend p isDir] ++ own ++ inner ++ tail ++ [.ascend p isDir])
/-- A sequence of visits of nodes directly inside the directory `p`. -/
inductive Visits : Path → List Ev → Prop
  | nil (p : Path) : Visits p []
  | cons {p : Path} {name : String} {a b : List Ev} (h : Visit (p ++ [name]) a) (hs : Visits p b) :
      Visits p (a ++ b)
end

/-- The paths announced by Descend events. -/
def descents (l : List Ev) : List Path := l.filterMap fun | .descend p _ => some p | _ => none
/-- The paths announced by Ascend events. -/
def ascents (l : List Ev) : List Path := l.filterMap fun | .ascend p _ => some p | _ => none

end Traverse
