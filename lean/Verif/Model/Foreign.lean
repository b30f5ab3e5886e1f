import Verif.Model.Resume
/-
Resuming from any file: what encoding/json makes of documents that Marshal did not write, and what Load makes of that. `Model/Resume` takes both
parts of the document, and objects where structs are expected, for granted.
Simplified: numbers fit their Go types, enum numbers have names (`unmarshal`), keys are spelt as the tags are (encoding/json ignores case), metrics have numbers as keys and are not
null, the strings under Tree and CurrentPath are paths.
-/
namespace Traverse
variable {κ : Type}

/-- What may stand where a struct, a pointer to one, or a map is expected (encoding/json, marshaler.go:78-93). -/
def Json.isStruct : Json → Bool
  | .obj _ => true
  | .null => true
  | _ => false

/-- The structs of json.FilterDef (internal/opts/json/filter-options.go:8-40). -/
def structsDef : Nat → Json → Bool
  | 0, _ => true
  | n + 1, j => j.isStruct && (j.get "Poly").isStruct && structsDef n ((j.get "Poly").get "File") && structsDef n ((j.get "Poly").get "Directory")

/-- json.PolyFilterDef (internal/opts/json/filter-options.go:8-11). -/
def structsPoly (p : Json) : Bool :=
  p.isStruct && structsDef (p.get "File").height (p.get "File") && structsDef (p.get "Directory").height (p.get "Directory")

/-- The structs of json.Options (internal/opts/json/options.go:5-21 and the other files there). -/
def structsOptions (j : Json) : Bool :=
  let b := j.get "Behaviours"
  let s := j.get "Sampling"
  let f := j.get "Filter"
  let h := j.get "Hibernate"
  j.isStruct && b.isStruct && (b.get "SubPath").isStruct && (b.get "Sort").isStruct && (b.get "Cascade").isStruct && s.isStruct &&
  (s.get "NoOf").isStruct && f.isStruct && structsDef (f.get "Node").height (f.get "Node") && (f.get "Child").isStruct &&
  (f.get "Sample").isStruct && structsPoly ((f.get "Sample").get "Poly") && h.isStruct && structsDef (h.get "WakeAt").height (h.get "WakeAt") &&
  structsDef (h.get "SleepAt").height (h.get "SleepAt") && (h.get "Behaviour").isStruct && (j.get "Concurrency").isStruct

/-- A metric of the document: a struct with two numbers (core/metrics.go:22-26). -/
def structsMetric (v : Json) : Bool := v.isStruct && (v.get "T").asNat.isSome && (v.get "Counter").asNat.isSome

/-- The structs of core.ActiveState (core/core-defs.go:76-86). -/
def structsSaved (j : Json) : Bool :=
  let m := j.get "Metrics"
  j.isStruct && (j.get "TraverseDescription").isStruct && (j.get "ResumeDescription").isStruct && m.isStruct &&
  [Metric.filesInvoked, .filesFilteredOut, .dirsInvoked, .dirsFilteredOut, .childFound, .childFilteredOut].all fun k => structsMetric (m.get k.key)

/-- persist.UnmarshalResult (marshaler.go:40-44), or what became of Unmarshal; Active may be nil. -/
inductive Loading (κ : Type) where
  | failed (e : PersistErr)
  | crash
  | loaded (o : Options κ) (active : Option Saved)

/-- persist.Unmarshal (marshaler.go:78-109) of any file; FromJSON (json-options.go:113-114) dereferences JO. -/
def unmarshalAny (P : Platform κ) (file : Except Err Json) : Loading κ :=
  match file with
  | .error e => .failed (.io e)
  | .ok doc =>
    if doc.isStruct && structsSaved (doc.get "Active") && structsOptions (doc.get "JO") then
      match pointer decodeSaved (doc.get "Active"), pointer decodeOptions (doc.get "JO") with
      | some _, some none => .crash
      | some s, some (some j) =>
        match comparisonEquals (some (fromJSON P j)) (some j) with
        | some f => .failed (.unequal f)
        | none => .loaded (fromJSON P j) s
      | _, _ => .failed .syntax
    else .failed .syntax

/-- What newResumePlatform returns, or that it does not return. (scaffold.go:54-97.) -/
inductive Restored (κ : Type) where
  | failed (e : BuildErr)
  | crash
  | ok (o : Options κ) (a : Active)

/-- newResumePlatform with resumeExtent.options, resume.Load and buildForest (scaffold.go:54-97, 168-209, extent.go:91-111,
resume-plugin.go:53-65, internal/opts/load.go:8-20), as `resumePlatform`, of any file: buildForest dereferences the state, with or without a forest from
the facade. -/
def resumePlatformAny (P : Platform κ) (r : Relic κ) (settings : List (Option (Setting κ))) (file : Except Err Json) : Restored κ :=
  match unmarshalAny P file with
  | .failed e => .failed (.load e)
  | .crash => .crash
  | .loaded o active =>
    match bindOptions o settings with
    | (_, some e) => .failed (.option e)
    | (o, none) =>
      match active with
      | none => .crash
      | some saved =>
        match (match r.forest with | some f => f saved.active.tree | none => some (false, false)) with
        | none => .failed .nilForest
        | some (t, rr) =>
          if t ≠ saved.traverseRelative then .failed .traverseFsMismatch
          else if rr ≠ saved.resumeRelative then .failed .resumeFsMismatch
          else .ok o saved.active

/-- age.Walk().Configure().Extent(age.Resume(facade, settings...)).Navigate(ctx) (factories.go:20-71, scaffold.go:54-97), as `walkResume`, from any file. -/
def walkResumeAny (P : Platform κ) (facade : Facade κ) (settings : List (Option (Setting κ)))
    (files : String → Except Err Json) (disk : Disk) (x : κ) : Report κ :=
  match facade with
  | .using _ => { verdict := .unbuilt .wrongResumeFacade, client := x, tape := [] }
  | .relic r =>
    match resumePlatformAny P r settings (files r.from) with
    | .failed e => { verdict := .unbuilt e, client := x, tape := [] }
    | .crash => { verdict := .panic, client := x, tape := [] }
    | .ok o a =>
      (buildRest P a.sub (some r.strategy) o.afterwards).resume r.strategy
        (r.handler.getD (fun k _ => (k, .panic))) disk a x

end Traverse
