import Verif.Model.Enums
/-
What the sources say each enumerated constant is called: the constants and line comments of enums/*-en.go, the files
the generated texts are meant to follow.
-/
namespace Traverse

/-- The documented constants of a type: value and line comment (enums/*-en.go; `SubscribeUndefined` has no comment and is
called after its own name, less the prefix `Subscribe`). -/
def Enum.documented : Enum → List (Nat × String)
  | .entryType => [(0, "directory-entry"), (1, "file-entry"), (2, "all-entries")]
  | .filterScope => [(0, "undefined-scope"), (1, "tree-scope"), (2, "top-scope"), (4, "leaf-scope"),
      (8, "intermediate-scope"), (16, "file-scope"), (32, "directory-scope"), (64, "custom-scope"),
      (4294967295, "all-scopes")]
  | .filterType => [(0, "undefined-filter"), (1, "glob-ex-filter"), (2, "regex-filter"), (3, "glob-filter"),
      (4, "custom-filter"), (5, "poly-filter")]
  | .globExtraction => [(0, "undefined"), (1, "star-dot"), (2, "star-only"), (3, "leading-dot-only"), (4, "bare")]
  | .hibernation => [(0, "undefined"), (1, "pending-hibernation"), (2, "active-hibernation"), (3, "retired-hibernation")]
  | .internalRole => [(0, "undefined-role"), (1, "logger-role"), (2, "sampler-role"), (3, "resume-role")]
  | .metric => [(1, "metric-no-of-files"), (2, "metric-no-of-files-filtered-out"), (3, "metric-no-of-directories"),
      (4, "metric-no-of-directories-filtered-out"), (5, "metric-no-of-child-files-found"),
      (6, "metric-no-of-child-files-found")]
  | .notification => [(0, "undefined-notification"), (1, "begin-notification"), (2, "end-notification"),
      (4, "descend-notification"), (8, "ascend-notification"), (16, "wake-notification"), (32, "sleep-notification"),
      (4294967295, "all-notification")]
  | .persistenceFormat => [(0, "persistence-undefined"), (1, "persist-json")]
  | .resumeStrategy => [(0, "undefined-resume-strategy"), (1, "spawn-resume-strategy"), (2, "fastward-resume-strategy")]
  | .role => [(0, "undefined-role"), (1, "anchor-role"), (2, "client-filter-role"), (3, "hibernate-role"),
      (4, "sampler-role"), (5, "nanny-role"), (6, "fastward-role")]
  | .sampleType => [(0, "undefined-sample"), (1, "slice-sample"), (2, "filter-sample"), (3, "custom-sample")]
  | .skipTraversal => [(0, "skip-none"), (1, "skip-dir"), (2, "skip-all")]
  | .subscription => [(0, "Undefined"), (1, "subscribe-files"), (2, "subscribe-directories"),
      (3, "subscribe-directories-with-files"), (4, "subscribe-to-everything")]
  | .triStateBool => [(0, "undefined-bool"), (1, "true"), (2, "false")]
  | .wayPoint => [(0, "undefined-way-point"), (1, "wake-from-hibernation"), (2, "sleep"), (3, "toggle-way-point")]

/-- The name of the type in Go. -/
def Enum.typeName : Enum → String
  | .entryType => "EntryType"
  | .filterScope => "FilterScope"
  | .filterType => "FilterType"
  | .globExtraction => "GlobExtraction"
  | .hibernation => "Hibernation"
  | .internalRole => "InternalRole"
  | .metric => "Metric"
  | .notification => "Notification"
  | .persistenceFormat => "PersistenceFormat"
  | .resumeStrategy => "ResumeStrategy"
  | .role => "Role"
  | .sampleType => "SampleType"
  | .skipTraversal => "SkipTraversal"
  | .subscription => "Subscription"
  | .triStateBool => "TriStateBool"
  | .wayPoint => "WayPoint"

/-- How many values the type has: uint is taken to be 64 bits wide. -/
def Enum.size : Enum → Nat
  | .filterScope | .notification | .role => 2 ^ 32
  | _ => 2 ^ 64

/-- The constants declared with `=` and an untyped expression: the compiler gives them the type int, so the generated
function does not know them (notification-en.go:12-19, filter-scope-en.go:53). -/
def Enum.untyped (e : Enum) (v : Nat) : Prop :=
  (e = .notification ∧ v ∈ [1, 2, 4, 8, 16, 32, 4294967295]) ∨ (e = .filterScope ∧ v = 4294967295)

end Traverse
