import Verif.Model.Basic
/-
The two built-in sort hooks: pref/defaults.go:34-49.
-/
namespace Traverse

/-- What sort.Slice(entries, func(i, j) bool { return key(entries[i].Name()) < key(entries[j].Name()) }) guarantees: the
entries in some order in which no key is smaller than an earlier one. The algorithm is not stable, so where entries with the
same key end up is left open. Go compares strings byte by byte; for valid UTF-8 that is the order of code points, which is the
order of Lean's strings. `key` is strings.ToLower for DefaultCaseInSensitiveSortHook (defaults.go:44-49) and the identity for
CaseSensitiveSortHook (defaults.go:36-41). -/
def SortsBy (key : String → String) (sort : List Tree → List Tree) : Prop :=
  ∀ l, (sort l).Perm l ∧ (sort l).Pairwise (fun a b => ¬ key b.name < key a.name)

/-- One function that does what sort.Slice guarantees. (pref/defaults.go:34-49.) -/
def sortByKey (key : String → String) (l : List Tree) : List Tree :=
  l.mergeSort (fun a b => decide (¬ key b.name < key a.name))

end Traverse
