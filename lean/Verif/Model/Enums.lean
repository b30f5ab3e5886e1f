/-
The texts of the enumerated values: enums/*-en-auto.go (generated by stringer).
-/
namespace Traverse

/-- strconv.FormatInt(i, 10), as used in every String function. -/
def formatInt : Int → List Char
  | .ofNat n => Nat.toDigits 10 n
  | .negSucc n => '-' :: Nat.toDigits 10 (n + 1)

/-- int64(i) of an unsigned value: two's complement. -/
def asInt64 (v : Nat) : Int := if v < 2 ^ 63 then (v : Int) else (v : Int) - 2 ^ 64

/-- name[a:b] of the generated code (enums/entry-type-en-auto.go:24; all names are ASCII): `none` stands for the runtime panic of a bad range. -/
def substring (name : String) (a b : Nat) : Option String :=
  if a ≤ b ∧ b ≤ name.length then some (String.ofList ((name.toList.drop a).take (b - a))) else none

/-- What stringer generates for a run of consecutive constants: the concatenated names, the index table, the first
constant (subtracted from the value before the look up) and the width of the underlying type. (E.g. enums/entry-type-en-auto.go:7-18,
enums/metric-en-auto.go:10-21.) -/
structure Stringer where
  label : String
  bits : Nat
  first : Nat
  name : String
  index : List Nat

/-- The default branch, label(number) (e.g. enums/entry-type-en-auto.go:22). -/
def numbered (label : String) (v : Nat) : String := String.ofList (label.toList ++ '(' :: formatInt (asInt64 v) ++ [')'])

/-- The generated String function (e.g. entry-type-en-auto.go:20-25, metric-en-auto.go:23-29): `none` is an index out of
range panic. Subtraction and addition wrap at the type's width. -/
def Stringer.text (s : Stringer) (v : Nat) : Option String :=
  let i := (v + 2 ^ s.bits - s.first) % 2 ^ s.bits
  if s.index.length - 1 ≤ i then some (numbered s.label ((i + s.first) % 2 ^ s.bits))
  else match s.index[i]?, s.index[i + 1]? with
    | some a, some b => substring s.name a b
    | _, _ => none

/-- _EntryType_name, _EntryType_index (enums/entry-type-en-auto.go:16-18); `type EntryType uint` (entry-type-en.go:6). -/
def entryTypeTable : Stringer := ⟨"EntryType", 64, 0, "directory-entryfile-entryall-entries", [0, 15, 25, 36]⟩

/-- _FilterType_name, _FilterType_index (enums/filter-type-en-auto.go:19-21). -/
def filterTypeTable : Stringer :=
  ⟨"FilterType", 64, 0, "undefined-filterglob-ex-filterregex-filterglob-filtercustom-filterpoly-filter",
   [0, 16, 30, 42, 53, 66, 77]⟩

/-- _GlobExtraction_name, _GlobExtraction_index (enums/glob-ex-en-auto.go:18-20). -/
def globExtractionTable : Stringer :=
  ⟨"GlobExtraction", 64, 0, "undefinedstar-dotstar-onlyleading-dot-onlybare", [0, 9, 17, 26, 42, 46]⟩

/-- _Hibernation_name, _Hibernation_index (enums/hibernation-en-auto.go:17-19). -/
def hibernationTable : Stringer :=
  ⟨"Hibernation", 64, 0, "undefinedpending-hibernationactive-hibernationretired-hibernation", [0, 9, 28, 46, 65]⟩

/-- _InternalRole_name, _InternalRole_index (enums/internal-role-en-auto.go:17-19). -/
def internalRoleTable : Stringer :=
  ⟨"InternalRole", 64, 0, "undefined-rolelogger-rolesampler-roleresume-role", [0, 14, 25, 37, 48]⟩

/-- _Metric_name, _Metric_index (enums/metric-en-auto.go:19-21): the constants start at 1. -/
def metricTable : Stringer :=
  ⟨"Metric", 64, 1, "metric-no-of-filesmetric-no-of-files-filtered-outmetric-no-of-directoriesmetric-no-of-directories-filtered-outmetric-no-of-child-files-foundmetric-no-of-child-files-found",
   [0, 18, 49, 73, 110, 140, 170]⟩

/-- _Notification_name, _Notification_index (enums/notification-en-auto.go:14-16); uint32 (notification-en.go:9). -/
def notificationTable : Stringer := ⟨"Notification", 32, 0, "undefined-notification", [0, 22]⟩

/-- _PersistenceFormat_name, _PersistenceFormat_index (enums/persistence-format-en-auto.go:15-17). -/
def persistenceFormatTable : Stringer :=
  ⟨"PersistenceFormat", 64, 0, "persistence-undefinedpersist-json", [0, 21, 33]⟩

/-- _ResumeStrategy_name, _ResumeStrategy_index (enums/resume-strategy-en-auto.go:16-18). -/
def resumeStrategyTable : Stringer :=
  ⟨"ResumeStrategy", 64, 0, "undefined-resume-strategyspawn-resume-strategyfastward-resume-strategy", [0, 25, 46, 70]⟩

/-- _Role_name, _Role_index (enums/role-en-auto.go:20-22); uint32 (role-en.go:5). -/
def roleTable : Stringer :=
  ⟨"Role", 32, 0, "undefined-roleanchor-roleclient-filter-rolehibernate-rolesampler-rolenanny-rolefastward-role",
   [0, 14, 25, 43, 57, 69, 79, 92]⟩

/-- _SampleType_name, _SampleType_index (enums/sample-type-en-auto.go:17-19). -/
def sampleTypeTable : Stringer :=
  ⟨"SampleType", 64, 0, "undefined-sampleslice-samplefilter-samplecustom-sample", [0, 16, 28, 41, 54]⟩

/-- _SkipTraversal_name, _SkipTraversal_index (enums/skip-traversal-en-auto.go:16-18). -/
def skipTraversalTable : Stringer := ⟨"SkipTraversal", 64, 0, "skip-noneskip-dirskip-all", [0, 9, 17, 25]⟩

/-- _Subscription_name, _Subscription_index (enums/subscription-en-auto.go:18-20). -/
def subscriptionTable : Stringer :=
  ⟨"Subscription", 64, 0,
   "Undefinedsubscribe-filessubscribe-directoriessubscribe-directories-with-filessubscribe-to-everything",
   [0, 9, 24, 45, 77, 100]⟩

/-- _TriStateBool_name, _TriStateBool_index (enums/tri-state-bool-en-auto.go:16-18). -/
def triStateBoolTable : Stringer := ⟨"TriStateBool", 64, 0, "undefined-booltruefalse", [0, 14, 18, 23]⟩

/-- _WayPoint_name, _WayPoint_index (enums/way-point-en-auto.go:17-19). -/
def wayPointTable : Stringer :=
  ⟨"WayPoint", 64, 0, "undefined-way-pointwake-from-hibernationsleeptoggle-way-point", [0, 19, 40, 45, 61]⟩

/-- _FilterScope_name_0, _FilterScope_index_0 (enums/filter-scope-en-auto.go:22, 31). -/
def filterScopeTable : Stringer := ⟨"FilterScope", 32, 0, "undefined-scopetree-scopetop-scope", [0, 15, 25, 34]⟩

/-- FilterScope.String (enums/filter-scope-en-auto.go:34-51). -/
def filterScopeText (v : Nat) : Option String :=
  if v ≤ 2 then
    match filterScopeTable.index[v]?, filterScopeTable.index[v + 1]? with
    | some a, some b => substring filterScopeTable.name a b
    | _, _ => none
  else if v = 4 then some "leaf-scope"
  else if v = 8 then some "intermediate-scope"
  else if v = 16 then some "file-scope"
  else if v = 32 then some "directory-scope"
  else if v = 64 then some "custom-scope"
  else some (numbered "FilterScope" v)

/-- The enumerated types (enums/*-en.go). -/
inductive Enum where
  | entryType | filterScope | filterType | globExtraction | hibernation | internalRole | metric | notification
  | persistenceFormat | resumeStrategy | role | sampleType | skipTraversal | subscription | triStateBool | wayPoint
  deriving DecidableEq, Repr

/-- Which table a type's String function looks up (enums/*-en-auto.go). -/
def Enum.table : Enum → Stringer
  | .entryType => entryTypeTable
  | .filterScope => filterScopeTable
  | .filterType => filterTypeTable
  | .globExtraction => globExtractionTable
  | .hibernation => hibernationTable
  | .internalRole => internalRoleTable
  | .metric => metricTable
  | .notification => notificationTable
  | .persistenceFormat => persistenceFormatTable
  | .resumeStrategy => resumeStrategyTable
  | .role => roleTable
  | .sampleType => sampleTypeTable
  | .skipTraversal => skipTraversalTable
  | .subscription => subscriptionTable
  | .triStateBool => triStateBoolTable
  | .wayPoint => wayPointTable

/-- String on a value of the type (enums/*-en-auto.go). -/
def Enum.text (e : Enum) (v : Nat) : Option String :=
  if e = .filterScope then filterScopeText v else e.table.text v

end Traverse
