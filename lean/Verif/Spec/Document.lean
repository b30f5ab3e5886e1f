import Verif.Spec.Enums
import Verif.Spec.Foreign
/-
Vocabulary for the contents of a saved document: values found by following keys, and the names of enumerated constants.
-/
namespace Traverse

/-- What is found by following keys from the outside in; null if there is nothing. -/
def Json.under : Json → List String → Json
  | j, [] => j
  | .obj fs, k :: ks => (Json.field fs k).under ks
  | _, _ :: _ => .null

/-- The documented names of the constants (enums/*-en.go). -/
def Subscription.label : Subscription → String
  | .undefined => "Undefined" | .files => "subscribe-files" | .directories => "subscribe-directories"
  | .directoriesWithFiles => "subscribe-directories-with-files" | .universal => "subscribe-to-everything"
def Hib.label : Hib → String
  | .undefined => "undefined" | .pending => "pending-hibernation" | .active => "active-hibernation" | .retired => "retired-hibernation"
def FilterType.label : FilterType → String
  | .undefined => "undefined-filter" | .globEx => "glob-ex-filter" | .regex => "regex-filter" | .glob => "glob-filter" | .custom => "custom-filter"
  | .poly => "poly-filter"
def SampleType.label : SampleType → String
  | .undefined => "undefined-sample" | .slice => "slice-sample" | .filter => "filter-sample" | .custom => "custom-sample"
def Tri.label : Tri → String
  | .undefined => "undefined-bool" | .yes => "true" | .no => "false"

def Metric.label : Metric → String
  | .filesInvoked => "metric-no-of-files" | .filesFilteredOut => "metric-no-of-files-filtered-out" | .dirsInvoked => "metric-no-of-directories"
  | .dirsFilteredOut => "metric-no-of-directories-filtered-out" | .childFound => "metric-no-of-child-files-found"
  | .childFilteredOut => "metric-no-of-child-files-found"

/-- A number that stands for a constant of that name. -/
def Json.Stands (j : Json) (e : Enum) (name : String) : Prop := ∃ v : Nat, j = .num v ∧ (v, name) ∈ e.documented

/-- The number of each metric: those of enums.Metric, of which two have the same name. -/
def Metric.number : Metric → Nat
  | .filesInvoked => 1
  | .filesFilteredOut => 2
  | .dirsInvoked => 3
  | .dirsFilteredOut => 4
  | .childFound => 5
  | .childFilteredOut => 6

/-- `j` describes the filter definition `d`. -/
def Json.Describes : Json → FilterDef → Prop
  | j, .plain c => Core j c ∧ j.under ["Poly"] = .null
  | j, .both c f d => Core j c ∧ Json.Describes (j.under ["Poly", "File"]) f ∧ Json.Describes (j.under ["Poly", "Directory"]) d
where
  /-- The fields other than Poly. -/
  Core (j : Json) (c : FilterCore) : Prop :=
    (j.under ["filter-type"]).Stands .filterType c.type.label ∧ j.under ["filter-description"] = .str c.description ∧ j.under ["pattern"] = .str c.pattern ∧
    j.under ["filter-scope"] = .num c.scope.toNat ∧ j.under ["negate"] = .bool c.negate ∧ (j.under ["if-not-applicable"]).Stands .triStateBool c.ifNotApplicable.label

end Traverse
