import Verif.Model.Resume
import Verif.Model.Concurrent
import Verif.Model.Lo
/-
The add-ons of Configure: extent.go, internal/enclave/enclave-defs.go. Only one kind has an effect, and only on a resume: an
add-on with a method OnLoad, which is given the saved state as it was loaded, to change it.
-/
namespace Traverse
variable {κ : Type}

/-- A method OnLoad(active *core.ActiveState). `edit`: given a state, what becomes of the client's state and of the saved one —
a pointer, so that what OnLoad leaves in it is what the session goes on with; `none` if it panics. `onNil`: given nil; `false`
if it panics. (internal/enclave/enclave-defs.go:132-138, 145-158.) -/
structure OnLoad (κ : Type) where
  edit : κ → Saved → κ × Option Saved
  onNil : κ → κ × Bool

/-- age.Addon, an empty interface: `none` is a value without a method OnLoad. (factories.go:73-75, extent.go:118-121.) -/
abbrev Addon (κ : Type) := Option (OnLoad κ)

/-- resumeExtent.seek: the first add-on that is a StateHandler. (extent.go:117-127.) -/
def seekHandler (addons : List (Addon κ)) : Option (OnLoad κ) :=
  match Lo.find addons Option.isSome with
  | some a => a
  | none => none

/-- resumeExtent.options with resume.Load and opts.Bind: OnLoad is called whether or not there was an error, with nil if the
file could not be loaded. `none`: OnLoad panicked. (extent.go:91-111, resume-plugin.go:53-65, internal/opts/load.go:8-20.) -/
def resumeOptions (P : Platform κ) (settings : List (Option (Setting κ))) (file : Except Err Json) (addons : List (Addon κ))
    (x : κ) : κ × Option (Except BuildErr (Options κ × Saved)) :=
  match unmarshal P file with
  | .error e =>
    match seekHandler addons with
    | none => (x, some (.error (.load e)))
    | some f => ((f.onNil x).1, if (f.onNil x).2 then some (.error (.load e)) else none)
  | .ok (o, saved) =>
    let (o, err) := bindOptions o settings
    let (x, saved) := match seekHandler addons with
      | none => (x, some saved)
      | some f => f.edit x saved
    (x, saved.map fun saved => match err with | some e => .error (.option e) | none => .ok (o, saved))

/-- newResumePlatform with buildForest after resumeExtent.options. (scaffold.go:54-97, 168-209.) -/
def resumePlatformWith (P : Platform κ) (r : Relic κ) (settings : List (Option (Setting κ))) (file : Except Err Json)
    (addons : List (Addon κ)) (x : κ) : κ × Option (Except BuildErr (Options κ × Active)) :=
  match resumeOptions P settings file addons x with
  | (x, none) => (x, none)
  | (x, some (.error e)) => (x, some (.error e))
  | (x, some (.ok (o, saved))) =>
    (x, some (
      match (match r.forest with | some f => f saved.active.tree | none => some (false, false)) with
      | none => .error .nilForest
      | some (t, rr) =>
        if t ≠ saved.traverseRelative then .error .traverseFsMismatch
        else if rr ≠ saved.resumeRelative then .error .resumeFsMismatch
        else .ok (o, saved.active)))

/-- age.Walk().Configure(addons...).Extent(age.Resume(facade, settings...)).Navigate(ctx). `error k`: Extent panicked, there
is no navigator, and the client is left in the state k. (factories.go:26-45, builders.go:31-45, scaffold.go:54-97.) -/
def walkResumeWith (P : Platform κ) (facade : Facade κ) (settings : List (Option (Setting κ))) (addons : List (Addon κ))
    (files : String → Except Err Json) (disk : Disk) (x : κ) : Except κ (Report κ) :=
  match facade with
  | .using _ => .ok { verdict := .unbuilt .wrongResumeFacade, client := x, tape := [] }
  | .relic r =>
    match resumePlatformWith P r settings (files r.from) addons x with
    | (x, none) => .error x
    | (x, some (.error e)) => .ok { verdict := .unbuilt e, client := x, tape := [] }
    | (x, some (.ok (o, a))) =>
      .ok ((buildRest P a.sub (some r.strategy) o.afterwards).resume r.strategy
        (r.handler.getD (fun k _ => (k, .panic))) disk a x)

/-- age.Run(wg).Configure(addons...).Extent(age.Resume(facade, settings...)).Navigate(ctx). (factories.go:51-71,
builders.go:31-45, scaffold.go:54-97.) -/
def runResumeWith (P : Platform κ) (facade : Facade κ) (settings : List (Option (Setting κ))) (addons : List (Addon κ))
    (files : String → Except Err Json) (pool : Option Err) (disk : Disk) (x : κ) : Except κ (Launch κ) :=
  match facade with
  | .using u =>
    .ok ⟨{ verdict := .unbuilt .wrongResumeFacade, client := x, tape := [] }, ⟨0, 0⟩, u.handler.getD (fun k _ => (k, .panic))⟩
  | .relic r =>
    match resumePlatformWith P r settings (files r.from) addons x with
    | (x, none) => .error x
    | (x, some (.error e)) =>
      .ok ⟨{ verdict := .unbuilt e, client := x, tape := [] }, ⟨0, 0⟩, r.handler.getD (fun k _ => (k, .panic))⟩
    | (x, some (.ok (o, a))) =>
      .ok ((buildRest P a.sub (some r.strategy) o.afterwards).relaunch r.strategy
        (r.handler.getD (fun k _ => (k, .panic))) pool disk a x)

end Traverse
