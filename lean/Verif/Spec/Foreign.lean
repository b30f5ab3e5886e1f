import Verif.Model.Foreign
/-
Vocabulary for documents that Marshal did not write: which fields there are, and when two documents say the same.
-/
namespace Traverse

/-- The fields of a saved document that hold further fields. -/
def structKeys : List String :=
  ["Active", "JO", "TraverseDescription", "ResumeDescription", "Metrics", "1", "2", "3", "4", "5", "6", "Behaviours", "SubPath", "Sort", "Cascade", "Sampling", "NoOf",
   "Filter", "Node", "Child", "Sample", "Poly", "File", "Directory", "Hibernate", "WakeAt", "SleepAt", "Behaviour", "Concurrency"]

/-- The fields that hold a value, and what is taken for them if they are missing. -/
def scalarKeys : List (String × Json) :=
  ["KeepTrailingSep", "IsCaseSensitive", "SortFilesFirst", "NoRecurse", "in-reverse", "negate", "hibernate-inclusive-wake", "hibernate-inclusive-sleep", "IsRelative",
    "IsDir"].map (fun k => (k, .bool false)) ++
  ["Depth", "sample-type", "no-of-files", "no-of-directories", "filter-type", "filter-scope", "if-not-applicable", "child-filter-type", "sample-filter-type",
    "sample-filter-scope", "no-of-workers", "Subscription", "Hibernation", "T", "Counter"].map (fun k => (k, .num 0)) ++
  ["filter-description", "pattern", "child-filter-description", "child-pattern", "sample-description", "sample-filter"].map (fun k => (k, .str "")) ++
  ["Tree", "CurrentPath"].map (fun k => (k, .path []))

/-- The value of a field; null if it is missing. The first counts, if there are several. -/
def Json.field (fields : List (String × Json)) (k : String) : Json :=
  match fields with
  | [] => .null
  | (k', v) :: rest => if k' = k then v else Json.field rest k

/-- `Json.SaysAs a b`: the documents say the same as far as the known fields go: whatever order they are in, whatever other fields there are, and with missing fields taken to be zero, false or empty. -/
inductive Json.SaysAs : Json → Json → Prop
  | same (a : Json) : Json.SaysAs a a
  | fields {fs gs : List (String × Json)} (hstruct : ∀ k ∈ structKeys, Json.SaysAs (Json.field fs k) (Json.field gs k))
      (hscalar : ∀ kz ∈ scalarKeys, Json.field fs kz.1 = Json.field gs kz.1 ∨ (Json.field fs kz.1 = .null ∧ Json.field gs kz.1 = kz.2) ∨
        (Json.field fs kz.1 = kz.2 ∧ Json.field gs kz.1 = .null)) : Json.SaysAs (.obj fs) (.obj gs)

end Traverse
