import Verif.Spec.Document
/-
Vocabulary for the shape of a saved document: what kind of value is expected where.
-/
namespace Traverse

/-- Kinds of values. -/
inductive Json.Kind where
  | object | truth | natural | integer | text | path
  deriving DecidableEq

/-- Null stands for any value; else the kinds must agree. -/
def Json.Fits : Json.Kind → Json → Prop
  | _, .null => True
  | .object, .obj _ => True
  | .truth, .bool _ => True
  | .natural, .num n => 0 ≤ n
  | .integer, .num _ => True
  | .text, .str _ => True
  | .path, .path _ => True
  | _, _ => False

/-- The fields of a filter definition. -/
def definitionFields : List (List String × Json.Kind) :=
  [([], .object), (["Poly"], .object), (["filter-type"], .natural), (["filter-description"], .text), (["pattern"], .text), (["filter-scope"], .natural),
   (["negate"], .truth), (["if-not-applicable"], .natural)]

/-- The places of the filter definitions that are not part of another one. -/
def definitionPlaces : List (List String) :=
  [["JO", "Filter", "Node"], ["JO", "Hibernate", "WakeAt"], ["JO", "Hibernate", "SleepAt"], ["JO", "Filter", "Sample", "Poly", "File"],
   ["JO", "Filter", "Sample", "Poly", "Directory"]]

/-- The places where there is one field. -/
def documentFields : List (List String × Json.Kind) :=
  [([], .object),
   (["Active"], .object), (["Active", "Tree"], .path), (["Active", "TraverseDescription"], .object), (["Active", "TraverseDescription", "IsRelative"], .truth),
   (["Active", "ResumeDescription"], .object), (["Active", "ResumeDescription", "IsRelative"], .truth), (["Active", "Subscription"], .natural),
   (["Active", "Hibernation"], .natural), (["Active", "CurrentPath"], .path), (["Active", "IsDir"], .truth), (["Active", "Depth"], .integer),
   (["Active", "Metrics"], .object)] ++
  ["1", "2", "3", "4", "5", "6"].flatMap (fun m => [(["Active", "Metrics", m], .object), (["Active", "Metrics", m, "T"], .natural), (["Active", "Metrics", m, "Counter"], .natural)]) ++
  [(["JO"], .object), (["JO", "Behaviours"], .object), (["JO", "Behaviours", "SubPath"], .object), (["JO", "Behaviours", "SubPath", "KeepTrailingSep"], .truth),
   (["JO", "Behaviours", "Sort"], .object), (["JO", "Behaviours", "Sort", "IsCaseSensitive"], .truth), (["JO", "Behaviours", "Sort", "SortFilesFirst"], .truth),
   (["JO", "Behaviours", "Cascade"], .object), (["JO", "Behaviours", "Cascade", "Depth"], .natural), (["JO", "Behaviours", "Cascade", "NoRecurse"], .truth),
   (["JO", "Sampling"], .object), (["JO", "Sampling", "sample-type"], .natural), (["JO", "Sampling", "in-reverse"], .truth), (["JO", "Sampling", "NoOf"], .object),
   (["JO", "Sampling", "NoOf", "no-of-files"], .natural), (["JO", "Sampling", "NoOf", "no-of-directories"], .natural),
   (["JO", "Filter"], .object), (["JO", "Filter", "Child"], .object), (["JO", "Filter", "Child", "child-filter-type"], .natural),
   (["JO", "Filter", "Child", "child-filter-description"], .text), (["JO", "Filter", "Child", "child-pattern"], .text), (["JO", "Filter", "Child", "negate"], .truth),
   (["JO", "Filter", "Sample"], .object), (["JO", "Filter", "Sample", "sample-filter-type"], .natural), (["JO", "Filter", "Sample", "sample-description"], .text),
   (["JO", "Filter", "Sample", "sample-filter"], .text), (["JO", "Filter", "Sample", "sample-filter-scope"], .natural), (["JO", "Filter", "Sample", "negate"], .truth),
   (["JO", "Filter", "Sample", "Poly"], .object), (["JO", "Hibernate"], .object), (["JO", "Hibernate", "Behaviour"], .object),
   (["JO", "Hibernate", "Behaviour", "hibernate-inclusive-wake"], .truth), (["JO", "Hibernate", "Behaviour", "hibernate-inclusive-sleep"], .truth),
   (["JO", "Concurrency"], .object), (["JO", "Concurrency", "no-of-workers"], .natural)]

/-- Filter definitions may be part of filter definitions. -/
inductive DefinitionAt : List String → Prop
  | place {p} (h : p ∈ definitionPlaces) : DefinitionAt p
  | file {p} (h : DefinitionAt p) : DefinitionAt (p ++ ["Poly", "File"])
  | directory {p} (h : DefinitionAt p) : DefinitionAt (p ++ ["Poly", "Directory"])

/-- What kind of value is expected at a place of a saved document. -/
inductive Expected : List String → Json.Kind → Prop
  | field {p k} (h : (p, k) ∈ documentFields) : Expected p k
  | definition {p q k} (hp : DefinitionAt p) (h : (q, k) ∈ definitionFields) : Expected (p ++ q) k

end Traverse
