import Verif.Model.Collections
/-
internal/third/lo: the slice and map helpers the code is written with, as the loops they are. `Verif.Props.Lo` proves that they do
what the list functions used elsewhere in the model do.
-/
namespace Traverse.Lo
variable {α β ρ υ : Type}

/-- `for i, item := range collection { ... }`: the body sees the loop's variables `b`, the item and its index, and either goes on or
leaves the function with a result (`.error`). (internal/third/lo/slice.go:12-16.) -/
def range (body : β → α → Nat → Except ρ β) : List α → Nat → β → Except ρ β
  | [], _, b => .ok b
  | x :: xs, i, b =>
    match body b x i with
    | .error r => .error r
    | .ok b => range body xs (i + 1) b

/-- A loop that never leaves early. (internal/third/lo/slice.go:84-90.) -/
def rangeAll (body : β → α → Nat → β) (l : List α) (b : β) : β :=
  match range (ρ := Empty) (fun b x i => .ok (body b x i)) l 0 b with
  | .ok b => b

/-- Ternary (internal/third/lo/condition.go:7-13). -/
def ternary (c : Bool) (a b : α) : α := if c then a else b
/-- TernaryF (internal/third/lo/condition.go:15-21). -/
def ternaryF (c : Bool) (a b : Unit → α) : α := if c then a () else b ()

/-- Filter (internal/third/lo/slice.go:9-19). -/
def filter (l : List α) (p : α → Nat → Bool) : List α :=
  rangeAll (fun result item i => if p item i then result ++ [item] else result) l []
/-- Reject (internal/third/lo/slice.go:433-443). -/
def reject (l : List α) (p : α → Nat → Bool) : List α :=
  rangeAll (fun result item i => if !p item i then result ++ [item] else result) l []
/-- Map: a slice of zero values is filled in place. (internal/third/lo/slice.go:39-47.) -/
def map [Inhabited β] (l : List α) (f : α → Nat → β) : List β :=
  rangeAll (fun result item i => result.set i (f item i)) l (List.replicate l.length default)
/-- MapE: the same, leaving at the first error with what is filled in by then. (internal/third/lo/slice.go:22-35.) -/
def mapE [Inhabited β] {ε : Type} (l : List α) (f : α → Nat → β × Option ε) : List β × Option ε :=
  match range (ρ := List β × Option ε) (fun result item i =>
      match f item i with
      | (v, some e) => .error (result.set i v, some e)
      | (v, none) => .ok (result.set i v)) l 0 (List.replicate l.length default) with
  | .ok result => (result, none)
  | .error r => r
/-- Reduce (internal/third/lo/slice.go:84-90). -/
def reduce (l : List α) (f : β → α → Nat → β) (init : β) : β := rangeAll f l init
/-- Uniq; the map `seen` is the list of its keys. (internal/third/lo/slice.go:126-142.) -/
def uniq [DecidableEq α] (l : List α) : List α :=
  (rangeAll (fun (b : List α × List α) item _ => if item ∈ b.2 then b else (b.1 ++ [item], item :: b.2)) l ([], [])).1
/-- GroupBy; a map is a function to slices, nil where there is no entry. (internal/third/lo/slice.go:166-176.) -/
def groupBy [DecidableEq υ] (l : List α) (key : α → υ) : υ → List α :=
  rangeAll (fun result item _ => fun k => if k = key item then result k ++ [item] else result k) l (fun _ => [])
/-- Find (internal/third/lo/find.go:36-45). -/
def find (l : List α) (p : α → Bool) : Option α :=
  match range (ρ := α) (fun (_ : Unit) item _ => if p item then .error item else .ok ()) l 0 () with
  | .ok _ => none
  | .error x => some x
/-- Last (internal/third/lo/find.go:311-320). -/
def last (l : List α) : Option α := if l.length = 0 then none else l[l.length - 1]?
/-- Contains (internal/third/lo/intersect.go:4-12). -/
def contains [DecidableEq α] (l : List α) (x : α) : Bool :=
  match range (ρ := Bool) (fun (_ : Unit) item _ => if item = x then .error true else .ok ()) l 0 () with
  | .ok _ => false
  | .error b => b
/-- EveryBy (internal/third/lo/intersect.go:37-45). -/
def everyBy (l : List α) (p : α → Bool) : Bool :=
  match range (ρ := Bool) (fun (_ : Unit) item _ => if !p item then .error false else .ok ()) l 0 () with
  | .ok _ => true
  | .error b => b
/-- Keys and Values of a map given as its entries in iteration order. (internal/third/lo/map.go:5-25.) -/
def keys (m : List (υ × α)) : List υ := rangeAll (fun result e _ => result ++ [e.1]) m []
/-- Values (internal/third/lo/map.go:17-25). -/
def values (m : List (υ × α)) : List α := rangeAll (fun result e _ => result ++ [e.2]) m []
/-- Sum, for natural numbers. (internal/third/lo/math.go:70-76.) -/
def sum (l : List Nat) : Nat := rangeAll (fun s v _ => s + v) l 0

end Traverse.Lo
