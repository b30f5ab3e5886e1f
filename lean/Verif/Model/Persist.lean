import Verif.Model.Session
/-
Saving and loading: internal/persist/{json-options,comparison,marshaler}.go, internal/opts/json/*.go.
encoding/json is trusted to turn a tree of values into text and back; which key holds which field is modelled here.
-/
namespace Traverse
variable {κ : Type}

/-! ### The persisted form (internal/opts/json) -/

/-- json.FilterDef without Poly (internal/opts/json/filter-options.go:13-35). -/
structure JFilterCore where
  type : FilterType := .undefined
  description : String := ""
  pattern : String := ""
  scope : Scope := 0#32
  negate : Bool := false
  ifNotApplicable : Tri := .undefined
  deriving DecidableEq, Repr, Inhabited

/-- json.FilterDef: `plain` is one whose Poly is nil (filter-options.go:8-42). -/
inductive JFilterDef where
  | plain (c : JFilterCore)
  | both (c : JFilterCore) (file directory : JFilterDef)
  deriving DecidableEq, Repr, Inhabited

/-- json.ChildFilterDef (filter-options.go:44-56). -/
structure JChildDef where
  type : FilterType := .undefined
  description : String := ""
  pattern : String := ""
  negate : Bool := false
  deriving DecidableEq, Repr, Inhabited

/-- json.SampleFilterDef (filter-options.go:58-80). -/
structure JSampleDef where
  type : FilterType := .undefined
  description : String := ""
  pattern : String := ""
  scope : Scope := 0#32
  negate : Bool := false
  poly : Option (JFilterDef × JFilterDef) := none
  deriving DecidableEq, Repr, Inhabited

/-- json.Options with its parts (options.go:5-21, navigation-behaviours.go:3-47, sampling-options.go:8-28,
filter-options.go:80-94, hibernate-options.go:3-26, concurrency-options.go:7-12). -/
structure JOptions where
  keepTrailingSep : Bool := false
  isCaseSensitive : Bool := false
  sortFilesFirst : Bool := false
  depth : Nat := 0
  noRecurse : Bool := false
  sampleType : SampleType := .undefined
  inReverse : Bool := false
  files : Nat := 0
  dirs : Nat := 0
  node : Option JFilterDef := none
  child : Option JChildDef := none
  sample : Option JSampleDef := none
  wakeAt : Option JFilterDef := none
  sleepAt : Option JFilterDef := none
  inclusiveWake : Bool := false
  inclusiveSleep : Bool := false
  now : Nat := 0
  deriving DecidableEq, Repr, Inhabited

/-! ### Conversion (json-options.go) -/

/-- The plain fields in NodeFilterDefToJSON (json-options.go:86-100). -/
def FilterCore.toJ (c : FilterCore) : JFilterCore :=
  { type := c.type, description := c.description, pattern := c.pattern, negate := c.negate, scope := c.scope,
    ifNotApplicable := c.ifNotApplicable }
/-- NodeFilterDefToJSON, NodePolyDefToJSON (json-options.go:86-112). -/
def FilterDef.toJ : FilterDef → JFilterDef
  | .plain c => .plain c.toJ
  | .both c f d => .both c.toJ f.toJ d.toJ

/-- The plain fields in NodeFilterDefFromJSON (json-options.go:184-199). -/
def JFilterCore.ofJ (c : JFilterCore) : FilterCore :=
  { type := c.type, description := c.description, pattern := c.pattern, negate := c.negate, scope := c.scope,
    ifNotApplicable := c.ifNotApplicable }
/-- NodeFilterDefFromJSON, NodePolyDefFromJSON (json-options.go:184-212). -/
def JFilterDef.ofJ : JFilterDef → FilterDef
  | .plain c => .plain c.ofJ
  | .both c f d => .both c.ofJ f.ofJ d.ofJ

/-- ToJSON (json-options.go:19-84). A sample filter's Poly is not converted. -/
def toJSON (o : Options κ) : JOptions where
  keepTrailingSep := o.behaviours.keepTrailingSep
  isCaseSensitive := o.behaviours.isCaseSensitive
  sortFilesFirst := o.behaviours.sortFilesFirst
  depth := o.behaviours.cascade.depth
  noRecurse := o.behaviours.cascade.noRecurse
  sampleType := o.sampling.type
  inReverse := o.sampling.inReverse
  files := o.sampling.files
  dirs := o.sampling.dirs
  node := o.filter.node.map FilterDef.toJ
  child := o.filter.child.map fun d => { type := d.type, description := d.description, pattern := d.pattern, negate := d.negate }
  sample := o.filter.sample.map fun d =>
    { type := d.type, description := d.description, pattern := d.pattern, scope := d.scope, negate := d.negate }
  wakeAt := o.hibernate.wakeAt.map FilterDef.toJ
  sleepAt := o.hibernate.sleepAt.map FilterDef.toJ
  inclusiveWake := o.hibernate.inclusiveWake
  inclusiveSleep := o.hibernate.inclusiveSleep
  now := o.concurrency.now

/-- FromJSON (json-options.go:114-182): what is not persisted has its default. -/
def fromJSON (P : Platform κ) (j : JOptions) : Options κ :=
  { defaultOptions P with
    behaviours := { keepTrailingSep := j.keepTrailingSep, isCaseSensitive := j.isCaseSensitive, sortFilesFirst := j.sortFilesFirst,
                    cascade := { depth := j.depth, noRecurse := j.noRecurse } }
    sampling := { type := j.sampleType, inReverse := j.inReverse, files := j.files, dirs := j.dirs }
    filter := {
      node := j.node.map JFilterDef.ofJ
      child := j.child.map fun d => { type := d.type, description := d.description, pattern := d.pattern, negate := d.negate }
      sample := j.sample.map fun d =>
        { type := d.type, description := d.description, pattern := d.pattern, scope := d.scope, negate := d.negate } }
    hibernate := { wakeAt := j.wakeAt.map JFilterDef.ofJ, sleepAt := j.sleepAt.map JFilterDef.ofJ,
                   inclusiveWake := j.inclusiveWake, inclusiveSleep := j.inclusiveSleep }
    concurrency := { now := j.now } }

/-! ### Comparison (comparison.go): the name of the field that differs, or `none` -/

/-- One check: `if a != b { return UnequalValueError{Field: name} }`, then the rest. (comparison.go:95-331.) -/
def check (same : Bool) (name : String) (rest : Option String) : Option String := if same then rest else some name

/-- equalFilterDef on two definitions that are not nil (comparison.go:260-331). -/
def equalDef : FilterDef → JFilterDef → Option String
  | .plain c, .plain j => equalCore c j
  | .plain c, .both j _ _ => equalCore c j
  | .both c _ _, .plain j => equalCore c j
  | .both c f d, .both j jf jd =>
    match equalCore c j with
    | some e => some e
    | none =>
      match equalDef f jf with
      | some e => some e
      | none => equalDef d jd
where
  equalCore (c : FilterCore) (j : JFilterCore) : Option String :=
    check (c.type == j.type) "Type" <| check (c.description == j.description) "Description" <|
    check (c.pattern == j.pattern) "Pattern" <| check (c.scope == j.scope) "Scope" <|
    check (c.negate == j.negate) "Negate" <| check (c.ifNotApplicable == j.ifNotApplicable) "IfNotApplicable" none

/-- equalFilterDef (comparison.go:233-331). -/
def equalFilterDef : Option FilterDef → Option JFilterDef → Option String
  | none, none => none
  | none, some _ => some "[nil def]"
  | some _, none => some "[nil jdef]"
  | some d, some j => equalDef d j

/-- equalChildFilterDef (comparison.go:333-401). -/
def equalChildDef : Option ChildDef → Option JChildDef → Option String
  | none, none => none
  | none, some _ => some "[nil def]"
  | some _, none => some "[nil jdef]"
  | some d, some j =>
    check (d.type == j.type) "Type" <| check (d.description == j.description) "Description" <|
    check (d.pattern == j.pattern) "Pattern" <| check (d.negate == j.negate) "Negate" none

/-- The poly part of equalSampleFilterDef (comparison.go:480-488). -/
def equalPoly : Option (FilterDef × FilterDef) → Option (JFilterDef × JFilterDef) → Option String
  | some (f, d), some (jf, jd) =>
    match equalDef f jf with
    | some e => some e
    | none => equalDef d jd
  | _, _ => none

/-- equalSampleFilterDef (comparison.go:403-491). -/
def equalSampleDef : Option SampleDef → Option JSampleDef → Option String
  | none, none => none
  | none, some _ => some "[nil def]"
  | some _, none => some "[nil jdef]"
  | some d, some j =>
    check (d.type == j.type) "Type" <| check (d.description == j.description) "Description" <|
    check (d.pattern == j.pattern) "Pattern" <| check (d.scope == j.scope) "Scope" <|
    check (d.negate == j.negate) "Negate" <| equalPoly d.poly j.poly

/-- `if err := f(); err != nil { return err }`. (comparison.go:63-93.) -/
def andThen (e rest : Option String) : Option String :=
  match e with
  | some e => some e
  | none => rest

/-- equalOptions with equalBehaviours, equalSamplingOptions, equalFilterOptions (comparison.go:63-231), for options that
are not nil. -/
def equalOptions (o : Options κ) (j : JOptions) : Option String :=
  check (o.behaviours.keepTrailingSep == j.keepTrailingSep) "KeepTrailingSep" <|
  check (o.behaviours.isCaseSensitive == j.isCaseSensitive) "IsCaseSensitive" <|
  check (o.behaviours.sortFilesFirst == j.sortFilesFirst) "SortFilesFirst" <|
  check (o.behaviours.cascade.depth == j.depth) "Depth" <|
  check (o.behaviours.cascade.noRecurse == j.noRecurse) "NoRecurse" <|
  check (o.sampling.type == j.sampleType) "Type" <|
  check (o.sampling.inReverse == j.inReverse) "InReverse" <|
  check (o.sampling.files == j.files) "Files" <|
  check (o.sampling.dirs == j.dirs) "Directories" <|
  andThen (equalFilterDef o.filter.node j.node) <|
  andThen (equalChildDef o.filter.child j.child) <|
  andThen (equalSampleDef o.filter.sample j.sample) <|
  andThen (equalFilterDef o.hibernate.wakeAt j.wakeAt) <|
  andThen (equalFilterDef o.hibernate.sleepAt j.sleepAt) <|
  check (o.hibernate.inclusiveWake == j.inclusiveWake) "InclusiveWake" <|
  check (o.hibernate.inclusiveSleep == j.inclusiveSleep) "InclusiveSleep" <|
  check (o.concurrency.now == j.now) "NoW" none

/-- Comparison.Equals (comparison.go:49-51, 63-84): options or persisted options may be nil. -/
def comparisonEquals : Option (Options κ) → Option JOptions → Option String
  | none, _ => some "[nil pref.Options]"
  | some _, none => some "[nil json.Options]"
  | some o, some j => equalOptions o j

/-! ### The document: encoding/json on the structs above

A Go struct becomes an object whose keys are the fields' tags or, without a tag, the fields' names; a nil pointer becomes
null; an enum is an integer; a map with integer keys becomes an object with the keys in decimal (encoding/json). Reading is
modelled for documents with these very keys. -/

/-- A JSON value. Integers are the only numbers there are; `path` is a string that holds a path. (encoding/json, marshaler.go:52-109.) -/
inductive Json where
  | null
  | bool (b : Bool)
  | num (n : Int)
  | str (s : String)
  | path (p : Path)
  | obj (fields : List (String × Json))
  deriving Repr, Inhabited

/-- The value under a key; absent keys leave the zero value, as null does. (encoding/json, marshaler.go:78-109.) -/
def Json.get (j : Json) (k : String) : Json :=
  match j with
  | .obj fs => ((fs.find? (fun f => f.1 == k)).map Prod.snd).getD .null
  | _ => .null

/-- Reading a bool (encoding/json, marshaler.go:78-109). -/
def Json.asBool : Json → Option Bool
  | .bool b => some b
  | .null => some false
  | _ => none
/-- Reading a uint (encoding/json, marshaler.go:78-109). -/
def Json.asNat : Json → Option Nat
  | .num (.ofNat n) => some n
  | .null => some 0
  | _ => none
/-- Reading an int (encoding/json, marshaler.go:78-109). -/
def Json.asInt : Json → Option Int
  | .num n => some n
  | .null => some 0
  | _ => none
/-- Reading a string (encoding/json, marshaler.go:78-109). -/
def Json.asStr : Json → Option String
  | .str s => some s
  | .null => some ""
  | _ => none
/-- Reading a path (encoding/json, marshaler.go:78-109). -/
def Json.asPath : Json → Option Path
  | .path p => some p
  | .null => some []
  | _ => none

/-- Writing a uint (encoding/json, marshaler.go:52-76). -/
def Json.nat (n : Nat) : Json := .num (.ofNat n)

/-- The numbers of the enums (enums/*-en.go). Go accepts any number; here those without a name are an error. -/
def FilterType.code : FilterType → Nat
  | .undefined => 0 | .globEx => 1 | .regex => 2 | .glob => 3 | .custom => 4 | .poly => 5
/-- enums/filter-type-en.go:7-37. -/
def FilterType.ofCode : Nat → Option FilterType
  | 0 => some .undefined | 1 => some .globEx | 2 => some .regex | 3 => some .glob | 4 => some .custom | 5 => some .poly | _ => none
/-- enums/sample-type-en.go:8-13. -/
def SampleType.code : SampleType → Nat
  | .undefined => 0 | .slice => 1 | .filter => 2 | .custom => 3
/-- enums/sample-type-en.go:8-13. -/
def SampleType.ofCode : Nat → Option SampleType
  | 0 => some .undefined | 1 => some .slice | 2 => some .filter | 3 => some .custom | _ => none
/-- enums/tri-state-bool-en.go:7-11. -/
def Tri.code : Tri → Nat
  | .undefined => 0 | .yes => 1 | .no => 2
/-- enums/tri-state-bool-en.go:7-11. -/
def Tri.ofCode : Nat → Option Tri
  | 0 => some .undefined | 1 => some .yes | 2 => some .no | _ => none
/-- enums/subscription-en.go:9-15. -/
def Subscription.code : Subscription → Nat
  | .undefined => 0 | .files => 1 | .directories => 2 | .directoriesWithFiles => 3 | .universal => 4
/-- enums/subscription-en.go:9-15. -/
def Subscription.ofCode : Nat → Option Subscription
  | 0 => some .undefined | 1 => some .files | 2 => some .directories | 3 => some .directoriesWithFiles | 4 => some .universal | _ => none
/-- enums/hibernation-en.go:8-22. -/
def Hib.code : Hib → Nat
  | .undefined => 0 | .pending => 1 | .active => 2 | .retired => 3
/-- enums/hibernation-en.go:8-22. -/
def Hib.ofCode : Nat → Option Hib
  | 0 => some .undefined | 1 => some .pending | 2 => some .active | 3 => some .retired | _ => none
/-- The number of a metric, and as a key. (enums/metric-en.go:9-39.) -/
def Metric.code : Metric → Nat
  | .filesInvoked => 1 | .filesFilteredOut => 2 | .dirsInvoked => 3 | .dirsFilteredOut => 4 | .childFound => 5 | .childFilteredOut => 6
/-- enums/metric-en.go:9-39, in decimal. -/
def Metric.key : Metric → String
  | .filesInvoked => "1" | .filesFilteredOut => "2" | .dirsInvoked => "3" | .dirsFilteredOut => "4" | .childFound => "5"
  | .childFilteredOut => "6"

/-- The tags of json.FilterDef (internal/opts/json/filter-options.go:13-40). -/
def JFilterCore.fields (c : JFilterCore) : List (String × Json) :=
  [("filter-type", .nat c.type.code), ("filter-description", .str c.description), ("pattern", .str c.pattern),
   ("filter-scope", .nat c.scope.toNat), ("negate", .bool c.negate), ("if-not-applicable", .nat c.ifNotApplicable.code)]
/-- json.FilterDef, json.PolyFilterDef (filter-options.go:8-42). -/
def JFilterDef.encode : JFilterDef → Json
  | .plain c => .obj (c.fields ++ [("Poly", .null)])
  | .both c f d => .obj (c.fields ++ [("Poly", .obj [("File", f.encode), ("Directory", d.encode)])])

/-- A pointer: nil is null (encoding/json).  internal/opts/json/filter-options.go:80-94. -/
def optional {α : Type} (f : α → Json) : Option α → Json
  | none => .null
  | some a => f a

/-- The tags of json.ChildFilterDef (internal/opts/json/filter-options.go:42-54). -/
def JChildDef.encode (c : JChildDef) : Json :=
  .obj [("child-filter-type", .nat c.type.code), ("child-filter-description", .str c.description), ("child-pattern", .str c.pattern),
    ("negate", .bool c.negate)]
/-- json.PolyFilterDef (internal/opts/json/filter-options.go:8-11). -/
def encodePoly (p : JFilterDef × JFilterDef) : Json := .obj [("File", p.1.encode), ("Directory", p.2.encode)]
/-- The tags of json.SampleFilterDef (internal/opts/json/filter-options.go:56-78). -/
def JSampleDef.encode (c : JSampleDef) : Json :=
  .obj [("sample-filter-type", .nat c.type.code), ("sample-description", .str c.description), ("sample-filter", .str c.pattern),
    ("sample-filter-scope", .nat c.scope.toNat), ("negate", .bool c.negate), ("Poly", optional encodePoly c.poly)]

/-- json.Options (internal/opts/json). (options.go:5-21 and the other files there.) -/
def JOptions.encode (o : JOptions) : Json :=
  .obj [
    ("Behaviours", .obj [
      ("SubPath", .obj [("KeepTrailingSep", .bool o.keepTrailingSep)]),
      ("Sort", .obj [("IsCaseSensitive", .bool o.isCaseSensitive), ("SortFilesFirst", .bool o.sortFilesFirst)]),
      ("Cascade", .obj [("Depth", .nat o.depth), ("NoRecurse", .bool o.noRecurse)])]),
    ("Sampling", .obj [
      ("sample-type", .nat o.sampleType.code), ("in-reverse", .bool o.inReverse),
      ("NoOf", .obj [("no-of-files", .nat o.files), ("no-of-directories", .nat o.dirs)])]),
    ("Filter", .obj [("Node", optional JFilterDef.encode o.node), ("Child", optional JChildDef.encode o.child),
      ("Sample", optional JSampleDef.encode o.sample)]),
    ("Hibernate", .obj [
      ("WakeAt", optional JFilterDef.encode o.wakeAt), ("SleepAt", optional JFilterDef.encode o.sleepAt),
      ("Behaviour", .obj [("hibernate-inclusive-wake", .bool o.inclusiveWake), ("hibernate-inclusive-sleep", .bool o.inclusiveSleep)])]),
    ("Concurrency", .obj [("no-of-workers", .nat o.now)])]

/-- What is saved with the options: core.ActiveState with the descriptions of the two file systems
(core/core-defs.go:71-81). -/
structure Saved where
  active : Active
  traverseRelative : Bool
  resumeRelative : Bool

/-- core.Metrics (core/metrics.go:26-32): registered metrics only. -/
def Metrics.encode (m : Metrics) : Json :=
  .obj ([Metric.filesInvoked, .filesFilteredOut, .dirsInvoked, .dirsFilteredOut, .childFound, .childFilteredOut].filterMap fun k =>
    (m k).map fun n => (k.key, .obj [("T", .nat k.code), ("Counter", .nat n)]))

/-- core.ActiveState (core/core-defs.go:76-86): no tags, so the names of the fields. -/
def Saved.encode (s : Saved) : Json :=
  .obj [("Tree", .path s.active.tree), ("TraverseDescription", .obj [("IsRelative", .bool s.traverseRelative)]),
    ("ResumeDescription", .obj [("IsRelative", .bool s.resumeRelative)]), ("Subscription", .nat s.active.sub.code),
    ("Hibernation", .nat s.active.hibernation.code), ("CurrentPath", .path s.active.currentPath), ("IsDir", .bool s.active.isDir),
    ("Depth", .num s.active.depth), ("Metrics", s.active.metrics.encode)]

/-! Reading. -/

/-- A pointer: null is nil. (internal/opts/json/filter-options.go:80-94.) -/
def pointer {α : Type} (f : Json → Option α) : Json → Option (Option α)
  | .null => some none
  | j => (f j).map some

/-- A FilterScope, 32 bits (enums/filter-scope-en.go:14-16). -/
def Json.asScope (j : Json) : Option Scope := j.asNat.map (BitVec.ofNat 32)

/-- The tags of json.FilterDef (internal/opts/json/filter-options.go:13-40). -/
def readCore (j : Json) : Option JFilterCore := do
  let type ← (j.get "filter-type").asNat.bind FilterType.ofCode
  let description ← (j.get "filter-description").asStr
  let pattern ← (j.get "pattern").asStr
  let scope ← (j.get "filter-scope").asScope
  let negate ← (j.get "negate").asBool
  let ifNotApplicable ← (j.get "if-not-applicable").asNat.bind Tri.ofCode
  return { type, description, pattern, scope, negate, ifNotApplicable }

/-- json.FilterDef; the fuel bounds the nesting of Poly in Poly, and is the size of the document.
(internal/opts/json/filter-options.go:8-40.) -/
def readDef : Nat → Json → Option JFilterDef
  | 0, _ => none
  | n + 1, j => do
    let c ← readCore j
    match j.get "Poly" with
    | .null => return .plain c
    | p => do
      let f ← readDef n (p.get "File")
      let d ← readDef n (p.get "Directory")
      return .both c f d

/-- How deep a document is. (fuel for reading, marshaler.go:78-109.) -/
def Json.height : Json → Nat
  | .obj fs => heights fs + 1
  | _ => 1
where
  heights : List (String × Json) → Nat
    | [] => 0
    | f :: fs => max f.2.height (heights fs)

/-- json.FilterDef (internal/opts/json/filter-options.go:8-40). -/
def decodeDef (j : Json) : Option JFilterDef := readDef j.height j

/-- json.ChildFilterDef (internal/opts/json/filter-options.go:42-54). -/
def decodeChild (j : Json) : Option JChildDef := do
  let type ← (j.get "child-filter-type").asNat.bind FilterType.ofCode
  let description ← (j.get "child-filter-description").asStr
  let pattern ← (j.get "child-pattern").asStr
  let negate ← (j.get "negate").asBool
  return { type, description, pattern, negate }

/-- json.PolyFilterDef (internal/opts/json/filter-options.go:8-11). -/
def decodePoly (j : Json) : Option (JFilterDef × JFilterDef) := do
  let f ← decodeDef (j.get "File")
  let d ← decodeDef (j.get "Directory")
  return (f, d)

/-- json.SampleFilterDef (internal/opts/json/filter-options.go:56-78). -/
def decodeSample (j : Json) : Option JSampleDef := do
  let type ← (j.get "sample-filter-type").asNat.bind FilterType.ofCode
  let description ← (j.get "sample-description").asStr
  let pattern ← (j.get "sample-filter").asStr
  let scope ← (j.get "sample-filter-scope").asScope
  let negate ← (j.get "negate").asBool
  let poly ← pointer decodePoly (j.get "Poly")
  return { type, description, pattern, scope, negate, poly }

/-- json.Options (internal/opts/json/options.go:5-21 and the other files there). -/
def decodeOptions (j : Json) : Option JOptions := do
  let b := j.get "Behaviours"
  let s := j.get "Sampling"
  let f := j.get "Filter"
  let h := j.get "Hibernate"
  let keepTrailingSep ← ((b.get "SubPath").get "KeepTrailingSep").asBool
  let isCaseSensitive ← ((b.get "Sort").get "IsCaseSensitive").asBool
  let sortFilesFirst ← ((b.get "Sort").get "SortFilesFirst").asBool
  let depth ← ((b.get "Cascade").get "Depth").asNat
  let noRecurse ← ((b.get "Cascade").get "NoRecurse").asBool
  let sampleType ← (s.get "sample-type").asNat.bind SampleType.ofCode
  let inReverse ← (s.get "in-reverse").asBool
  let files ← ((s.get "NoOf").get "no-of-files").asNat
  let dirs ← ((s.get "NoOf").get "no-of-directories").asNat
  let node ← pointer decodeDef (f.get "Node")
  let child ← pointer decodeChild (f.get "Child")
  let sample ← pointer decodeSample (f.get "Sample")
  let wakeAt ← pointer decodeDef (h.get "WakeAt")
  let sleepAt ← pointer decodeDef (h.get "SleepAt")
  let inclusiveWake ← ((h.get "Behaviour").get "hibernate-inclusive-wake").asBool
  let inclusiveSleep ← ((h.get "Behaviour").get "hibernate-inclusive-sleep").asBool
  let now ← ((j.get "Concurrency").get "no-of-workers").asNat
  return { keepTrailingSep, isCaseSensitive, sortFilesFirst, depth, noRecurse, sampleType, inReverse, files, dirs, node, child,
           sample, wakeAt, sleepAt, inclusiveWake, inclusiveSleep, now }

/-- core.Metrics: a key with null, or none at all, is not registered. (core/metrics.go:26-32.) -/
def decodeMetrics (j : Json) : Option Metrics :=
  some fun k =>
    match j.get k.key with
    | .null => none
    | v => (v.get "Counter").asNat

/-- core.ActiveState (core/core-defs.go:76-86). -/
def decodeSaved (j : Json) : Option Saved := do
  let tree ← (j.get "Tree").asPath
  let traverseRelative ← ((j.get "TraverseDescription").get "IsRelative").asBool
  let resumeRelative ← ((j.get "ResumeDescription").get "IsRelative").asBool
  let sub ← (j.get "Subscription").asNat.bind Subscription.ofCode
  let hibernation ← (j.get "Hibernation").asNat.bind Hib.ofCode
  let currentPath ← (j.get "CurrentPath").asPath
  let isDir ← (j.get "IsDir").asBool
  let depth ← (j.get "Depth").asInt
  let metrics ← decodeMetrics (j.get "Metrics")
  return { active := { tree, sub, hibernation, currentPath, isDir, depth, metrics }, traverseRelative, resumeRelative }

/-! ### marshaler.go -/

/-- persist.Marshal (marshaler.go:52-76): the document that is written, or an error. The document is only written if the
conversion compares equal. -/
def marshal (o : Options κ) (s : Saved) : Except PersistErr Json :=
  match comparisonEquals (some o) (some (toJSON o)) with
  | some f => .error (.unequal f)
  | none => .ok (.obj [("Active", s.encode), ("JO", (toJSON o).encode)])

/-- persist.Unmarshal without tampering (marshaler.go:78-109). A document without JO makes FromJSON dereference nil;
that is `syntax` here, and as it is in `unmarshalAny` (Model/Foreign). -/
def unmarshal (P : Platform κ) (file : Except Err Json) : Except PersistErr (Options κ × Saved) :=
  match file with
  | .error e => .error (.io e)
  | .ok doc =>
    match decodeSaved (doc.get "Active"), decodeOptions (doc.get "JO") with
    | some s, some j =>
      match comparisonEquals (some (fromJSON P j)) (some j) with
      | some f => .error (.unequal f)
      | none => .ok (fromJSON P j, s)
    | _, _ => .error .syntax

end Traverse
