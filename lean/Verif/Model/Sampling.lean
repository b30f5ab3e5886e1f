import Verif.Model.Filters
import Verif.Model.Hooks
import Verif.Model.Chain
/-
Sampling: internal/feat/sampling/{controller,sampling-plugin}.go, internal/feat/filter/scheme-sampler.go (create), and the
read hook that results from them.
-/
namespace Traverse

/-- pref.SamplingOptions (pref/options-sampling.go:10-31); Iteration is never used by the program. `files`, `dirs` are
NoOf.Files, NoOf.Directories (uint). -/
structure Quota where
  files : Nat := 0
  dirs : Nat := 0
  inReverse : Bool := false
  deriving DecidableEq, Repr

variable {α : Type}

/-- first (controller.go:68-70). -/
def sampleFirst (n : Nat) (l : List α) : List α := l.take (min n l.length)
/-- last (controller.go:72-74). -/
def sampleLast (n : Nat) (l : List α) : List α := l.drop (l.length - min n l.length)

/-- union (controller.go:49-66). -/
def sampleUnion (q : Quota) (files dirs : List α) : List α :=
  let noOfFiles := if q.files = 0 then files.length else q.files
  let noOfDirs := if q.dirs = 0 then dirs.length else q.dirs
  (if q.inReverse then sampleLast noOfFiles files else sampleFirst noOfFiles files) ++
  (if q.inReverse then sampleLast noOfDirs dirs else sampleFirst noOfDirs dirs)

/-- What the read hooks work on: the entries read and the error. (core/hooks.go, navigation-fs.go:7-14.) -/
abbrev ReadResult := List Tree × Option Err

/-- controller.sample (controller.go:27-37): the error it is given is ignored, nil is returned. -/
def sampleHook (q : Quota) : ReadResult → ReadResult → ReadResult := fun r _ =>
  (sampleUnion q (r.1.filter (fun t => !t.isDir)) (r.1.filter (fun t => t.isDir)), none)

/-- A function on directory entries applied to entries that carry what lies below them: each entry it returns is taken back
to where it came from. (Entries of one directory have different names.) (scheme-sampler.go:30-36.) -/
def liftMatching (m : List Entry → List Entry) (l : List Tree) : List Tree :=
  (m (l.map Tree.entry)).filterMap (fun e => l.find? (fun t => decide (t.entry = e)))

/-- The function chained by samplerScheme.create (scheme-sampler.go:30-36): keeps the error. -/
def matchingHook (m : List Entry → List Entry) : ReadResult → ReadResult → ReadResult := fun r _ =>
  (liftMatching m r.1, r.2)

/-- The ReadDirectory hook when navigation starts: the default, or the client's own function (`base`), then the sample
filter if it is the primary scheme (chained when the filter plugin registers), then the sampler (chained in the sampling
plugin's Init, which comes after all registrations: builders.go:62-119). -/
def readHook (base : ReadResult → ReadResult) (matching : Option (List Entry → List Entry)) (q : Option Quota) :
    HookCtrl ReadResult ReadResult :=
  let h := (HookCtrl.new (fun r : ReadResult => defaultRead r.1 r.2)).tap base
  let h := match matching with
    | some m => h.chain (matchingHook m)
    | none => h
  match q with
  | some q => h.chain (sampleHook q)
  | none => h

/-- The read function of the navigation settings (navigation-fs.go:7-14). -/
def sampledRead (matching : Option (List Entry → List Entry)) (q : Option Quota) :
    List Tree → Option Err → List Tree × Option Err :=
  fun l e => (readHook (fun r => defaultRead r.1 r.2) matching q).invoke (l, e)

end Traverse
