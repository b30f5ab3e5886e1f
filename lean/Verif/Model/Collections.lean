/-
The collections package: positional-set.go, stack.go, iterators.go.
-/
namespace Traverse

/-! ### PositionalSet -/

section
variable {T : Type} [DecidableEq T]

/-- lo.Uniq (internal/third/lo/slice.go, used at positional-set.go:22): first occurrences, in order. -/
def uniqFrom (seen : List T) : List T → List T
  | [] => []
  | x :: xs => if x ∈ seen then uniqFrom seen xs else x :: uniqFrom (x :: seen) xs

/-- PositionalSet (positional-set.go:12-19). `items` holds the keys of the map (their values are always
true: line 85 writes false and line 87 removes the key); `positions` is a function of `order`. -/
structure PSet (T : Type) where
  order : List T
  items : List T
  anchor : T
  invalidated : Bool
  cache : List T

/-- NewPositionalSet (positional-set.go:21-43). -/
def PSet.new (order : List T) (anchor : T) : PSet T :=
  { order := (uniqFrom [] order).filter (fun x => !decide (x = anchor)) ++ [anchor]
    items := [anchor], anchor := anchor, invalidated := true, cache := [] }

/-- Insert (positional-set.go:46-61). -/
def PSet.insert (ps : PSet T) (x : T) : PSet T × Bool :=
  if x = ps.anchor then (ps, false)
  else if x ∈ ps.order then
    if x ∈ ps.items then (ps, false)
    else ({ ps with items := x :: ps.items, invalidated := true }, true)
  else (ps, false)

/-- All (positional-set.go:65-77). -/
def PSet.insertAll (ps : PSet T) : List T → PSet T × Bool
  | [] => (ps, true)
  | x :: xs =>
    let r := ps.insert x
    let r' := r.1.insertAll xs
    (r'.1, r.2 && r'.2)

/-- Delete (positional-set.go:80-88). -/
def PSet.delete (ps : PSet T) (x : T) : PSet T :=
  if x = ps.anchor then ps
  else { ps with items := ps.items.filter (fun y => !decide (y = x)), invalidated := true }

/-- Contains (positional-set.go:91-93). -/
def PSet.contains (ps : PSet T) (x : T) : Bool := decide (x ∈ ps.items)

/-- Items (positional-set.go:100-115): the listing is cached. -/
def PSet.list (ps : PSet T) : PSet T × List T :=
  if ps.invalidated then
    let l := ps.order.filter (fun x => decide (x ∈ ps.items))
    ({ ps with cache := l, invalidated := false }, l)
  else (ps, ps.cache)

/-- Top (positional-set.go:95-97); `none` is Go's index out of range panic. -/
def PSet.top (ps : PSet T) : PSet T × Option T := (ps.list.1, ps.list.2.head?)

/-- Position (positional-set.go:118-121). -/
def PSet.position (ps : PSet T) (x : T) : Option Nat := ps.order.idxOf? x

/-- Count (positional-set.go:124-126). -/
def PSet.count (ps : PSet T) : Nat := ps.items.length

end

/-! ### Stack -/

/-- Stack (stack.go:17-19). Slices are taken as values: the sharing of the backing array with the slice given to
NewStackWith is not modelled. -/
structure Stk (T : Type) where
  content : List T

/-- Push (stack.go:22-24). -/
def Stk.push {T} (s : Stk T) (x : T) : Stk T := ⟨s.content ++ [x]⟩
/-- Pop (stack.go:27-36) with pop and top (stack.go:72-82); `none` is ErrStackIsEmpty. -/
def Stk.pop {T} (s : Stk T) : Stk T × Option T :=
  match s.content.getLast? with
  | none => (s, none)
  | some x => (⟨s.content.take (s.content.length - 1)⟩, some x)
/-- Current (stack.go:48-55). -/
def Stk.current {T} (s : Stk T) : Option T := s.content[s.content.length - 1]?
/-- Size (stack.go:58-60). -/
def Stk.size {T} (s : Stk T) : Nat := s.content.length
/-- IsEmpty (stack.go:63-65). -/
def Stk.isEmpty {T} (s : Stk T) : Bool := s.content.length == 0

/-! ### Iterators -/

/-- baseIterator (iterators.go:100-104); `fwd` tells forwardIterator from reverseIterator. -/
structure It (T : Type) where
  fwd : Bool
  zero : T
  container : List T
  current : Int

section
variable {T : Type}
/-- newForwardIt, newReverseIt (iterators.go:50-63, 83-91). -/
def It.new (fwd : Bool) (elements : List T) (zero : T) : It T :=
  { fwd, zero, container := elements, current := if fwd then -1 else elements.length }
/-- Valid (iterators.go:109-111). -/
def It.valid (i : It T) : Bool := decide (0 ≤ i.current) && decide (i.current < i.container.length)
/-- container[current]. (iterators.go:122-145, 162-185.) -/
def It.at (i : It T) : T := i.container.getD i.current.toNat i.zero
/-- Start (iterators.go:122-131, 162-171). -/
def It.start (i : It T) : It T × T :=
  if i.container.length = 0 then (i, i.zero)
  else
    let j := { i with current := if i.fwd then 0 else (i.container.length : Int) - 1 }
    (j, j.at)
/-- Next (iterators.go:138-145, 178-185). -/
def It.next (i : It T) : It T × T :=
  let j := { i with current := if i.fwd then i.current + 1 else i.current - 1 }
  (j, if j.valid then j.at else j.zero)
/-- Reset (iterators.go:151-154, 191-194). -/
def It.reset (i : It T) (entries : List T) : It T :=
  { i with container := entries, current := if i.fwd then -1 else entries.length }

/-- The loop of runAll (iterators.go:257-263) as a relation: `Loop each while it entry t es it' t'` says that from
the loop head with the given entry and client state `t` the entries `es` are processed, leaving `it'` and `t'`. -/
inductive It.Loop {τ R : Type} (each : τ → T → τ × R) (whl : τ → T → R → τ × Bool) :
    It T → T → τ → List T → It T → τ → Prop
  | stop {i e t} (h : i.valid = false) : It.Loop each whl i e t [] i t
  | brk {i e t} (h : i.valid = true) (hw : (whl (each t e).1 e (each t e).2).2 = false) :
      It.Loop each whl i e t [e] i (whl (each t e).1 e (each t e).2).1
  | go {i e t es i' t'} (h : i.valid = true) (hw : (whl (each t e).1 e (each t e).2).2 = true)
      (hr : It.Loop each whl i.next.1 i.next.2 (whl (each t e).1 e (each t e).2).1 es i' t') :
      It.Loop each whl i e t (e :: es) i' t'

/-- RunAll (iterators.go:234-236, 248-250). -/
def It.RunAll {τ R : Type} (each : τ → T → τ × R) (whl : τ → T → R → τ × Bool) (i : It T) (t : τ) (es : List T)
    (i' : It T) (t' : τ) : Prop := It.Loop each whl i.start.1 i.start.2 t es i' t'
end

end Traverse
