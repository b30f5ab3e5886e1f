import Verif.Model.Kernel
/-
A flat, recursion free account of what a traversal does: the list of nodes in pre-order (`items`) and a
relation (`Run`) saying which calls a session may make while going down that list once, given the
answers it gets. It does not mention the depth counter, the recursion, the progress flags' way up the
stack, nor descend/ascend.
-/
namespace Traverse

/-- A node of the tree as it would be presented, with the read error of its directory. -/
structure Item where
  node : Node
  readErr : Option Err
  deriving DecidableEq, Repr, Inhabited

mutual
/-- Pre-order list of the nodes at depth at most the limit; `d` is the depth of this node. -/
def items (c : Nav) (parents : List NodeInfo) (pp : Path) (d : Int) : Tree → List Item
  | .node e re fs ds kids =>
    let t := Tree.node e re fs ds kids
    let path := pp ++ [e.name]
    let n := mkNode c parents path t (d + 1)
    if tooDeep c d then []
    else ⟨n, readErrOf c t⟩ :: itemsList c (n.toNodeInfo :: parents) path (d + 1) kids
def itemsList (c : Nav) (parents : List NodeInfo) (pp : Path) (d : Int) : List Tree → List Item
  | [] => []
  | t :: ts => items c parents pp d t ++ itemsList c parents pp d ts
end

/-- The calls other than life-cycle events. -/
def Ev.isAct : Ev → Bool
  | .descend .. | .ascend .. => false
  | _ => true

def acts (l : List Ev) : List Ev := l.filter Ev.isAct

/-- What the skip handler's verdict leads to, per subscription. -/
def verdict (sub : Subscription) (re : Option Err) (sk : Skip) (e : Option Err) : Act :=
  match sub with
  | .files => if sk = .all ∨ re.isSome ∨ sk = .dir then .done (.ret true e) else .travel
  | .directories | .directoriesWithFiles => if sk = .all then .done (.ret true e) else .travel
  | _ => if sk = .all then .done (.ret true e) else if sk = .dir then .done (.ret false e) else .travel

/-- The calls made for one node, and what follows from the answers. -/
inductive Step (sub : Subscription) (it : Item) : List Ev → Act → Prop
  | panicked (h : sub = .files → it.node.isDir = false) :
      Step sub it [.invoke it.node .panic] (.done .panic)
  | file (e : Option Err) (h : sub = .files) (hn : it.node.isDir = false) :
      Step sub it [.invoke it.node (.ok e)] (.done (.ret false e))
  | failed (e : Err) (h : sub ≠ .files) :
      Step sub it [.invoke it.node (.ok (some e))] (.done (.ret true (some e)))
  | asked (sk : Skip) (e : Option Err) (h : sub ≠ .files) :
      Step sub it [.invoke it.node (.ok none), .ask it.node it.readErr sk e]
        (verdict sub it.readErr sk e)
  | askedOnly (sk : Skip) (e : Option Err) (h : sub = .files) (hn : it.node.isDir = true) :
      Step sub it [.ask it.node it.readErr sk e] (verdict sub it.readErr sk e)

/-- The answer `(progress, err)` of a node below the root ends the whole traversal. -/
def stops (p : Bool) (e : Err) : Bool :=
  if p then !e.isSentinel else e.isSkipDir || !e.isSkipAll

/-- `Run sub d0 items calls f`: going down `items` (the root has depth `d0`), a session may make exactly
the calls `calls` and end with `f`. -/
inductive Run (sub : Subscription) (d0 : Int) : List Item → List Ev → Final → Prop
  /-- no node left -/
  | nil : Run sub d0 [] [] (.done none)
  /-- the node was accepted: go on with what is inside it -/
  | travel {it rest evs es f} (hs : Step sub it evs .travel) (hr : Run sub d0 rest es f) :
      Run sub d0 (it :: rest) (evs ++ es) f
  /-- the root's own answer is the result -/
  | root {it rest evs o} (hs : Step sub it evs (.done o)) (hd : it.node.depth = d0) :
      Run sub d0 (it :: rest) evs o.final
  /-- the node was declined: go on behind everything inside it -/
  | next {it rest evs p e es f} (hs : Step sub it evs (.done (.ret p e))) (hd : d0 < it.node.depth)
      (he : e = none ∨ (p = true ∧ ∃ x, e = some x ∧ x.isSentinel = true))
      (hr : Run sub d0 (rest.dropWhile (fun j => decide (it.node.depth < j.node.depth))) es f) :
      Run sub d0 (it :: rest) (evs ++ es) f
  /-- go on behind the parent -/
  | leave {it rest evs e es f} (hs : Step sub it evs (.done (.ret false (some e))))
      (hd : d0 + 1 < it.node.depth) (he : e.isSkipDir = false) (ha : e.isSkipAll = true)
      (hr : Run sub d0 (rest.dropWhile (fun j => decide (it.node.depth ≤ j.node.depth))) es f) :
      Run sub d0 (it :: rest) (evs ++ es) f
  /-- the same where the parent is the root -/
  | leaveTop {it rest evs e} (hs : Step sub it evs (.done (.ret false (some e))))
      (hd : d0 + 1 = it.node.depth) (he : e.isSkipDir = false) (ha : e.isSkipAll = true) :
      Run sub d0 (it :: rest) evs (.done (some e))
  /-- the node's answer ends everything -/
  | stop {it rest evs p e} (hs : Step sub it evs (.done (.ret p (some e)))) (hd : d0 < it.node.depth)
      (he : stops p e = true) :
      Run sub d0 (it :: rest) evs (.done (some e))
  /-- the client panicked below the root -/
  | crash {it rest evs cur r} (hs : Step sub it evs (.done .panic)) (hd : d0 < it.node.depth)
      (hp : it.node.parents.head? = some cur) :
      Run sub d0 (it :: rest) (evs ++ [.rescue cur (it.node.depth - 1) r]) (.done (some r.err))

end Traverse
